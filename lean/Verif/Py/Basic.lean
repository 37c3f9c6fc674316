/-! Small additions to the core library used everywhere. -/
deriving instance DecidableEq for Except
