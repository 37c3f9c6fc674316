import Verif.Props.Memvar
import Verif.Props.Array
import Verif.Props.Fxp
import Verif.Props.FxpCode
import Verif.Props.FxpLines
import Verif.Props.Strings
import Verif.Props.Settings
import Verif.Props.Database
import Verif.Props.Scan
import Verif.Props.Workareas
import Verif.Props.DbCalls
import Verif.Props.Preproc
import Verif.Props.Blocks
import Verif.Props.Expr
import Verif.Props.Inline
import Verif.Props.Literals
import Verif.Props.Abbrev
import Verif.Props.Procs
import Verif.Model.Paths
import Verif.Spec.Member
import Verif.Props.Paths
import Verif.Props.With
import Verif.Props.Files
import Verif.Props.Comments
import Verif.Props.Classes
import Verif.Props.Names
import Verif.Props.Do
import Verif.Props.Dates
import Verif.Props.Moves
import Verif.Props.Results
import Verif.Props.TextFns
import Verif.Props.Numbers
import Verif.Props.Calls
import Verif.Props.Operators
import Verif.Props.Months
import Verif.Props.TextFiles
import Verif.Props.ModuleNames
import Verif.Model.Scatter
import Verif.Props.Scatter
import Verif.Model.TextBlock
import Verif.Props.TextBlock
import Verif.Model.Objects
import Verif.Props.Objects
import Verif.Model.TableArgs
import Verif.Props.TableArgs
import Verif.Model.Forms
import Verif.Props.Forms
import Verif.Model.ClassLib
import Verif.Props.ClassLib
import Verif.Model.LowFiles
import Verif.Props.LowFiles
import Verif.Model.PathFns
import Verif.Props.PathFns
import Verif.Spec.Program
import Verif.Model.Program
import Verif.Props.Program
import Verif.Props.Reference
import Verif.Model.Seek
import Verif.Props.Seek
import Verif.Model.Errors
import Verif.Props.Errors
import Verif.Model.OnError
import Verif.Props.OnError
import Verif.Model.FileCommands
import Verif.Props.FileCommands
import Verif.Model.Commands
import Verif.Props.Commands
import Verif.Model.Controls
import Verif.Props.Controls
import Verif.Model.Methods
import Verif.Spec.Methods
import Verif.Props.Methods
import Verif.Model.InlineCalls
import Verif.Props.InlineCalls
import Verif.Model.Deleted
import Verif.Props.Deleted
import Verif.Model.Creation
import Verif.Props.Creation
import Verif.Model.FxpListing
import Verif.Props.FxpListing
import Verif.Model.CreateTable
import Verif.Props.CreateTable
import Verif.Model.MessageBox
import Verif.Props.MessageBox
import Verif.Model.Cast
import Verif.Props.Cast
import Verif.Model.SqlExec
import Verif.Props.SqlExec
import Verif.Model.Dll
import Verif.Props.Dll
import Verif.Model.SqlConn
import Verif.Props.SqlConn
import Verif.Model.NameArgs
import Verif.Props.NameArgs
import Verif.Model.MacroLines
import Verif.Props.MacroLines
import Verif.Model.LineTokens
import Verif.Props.LineTokens
import Verif.Model.Run
import Verif.Props.Run
import Verif.Model.FxpDates
import Verif.Props.FxpDates
import Verif.Props.Chars
import Verif.Model.Insert
import Verif.Props.Insert
import Verif.Model.Precedence
import Verif.Props.Precedence
import Verif.Props.FxpDirectory
import Verif.Model.SetStmt
import Verif.Props.SetStmt
import Verif.Model.Extremes
import Verif.Props.Extremes
import Verif.Model.AtSay
import Verif.Props.AtSay
import Verif.Model.ScopeFlag
import Verif.Props.ScopeFlag
import Verif.Model.VarType
import Verif.Props.VarType
import Verif.Model.ForRange
import Verif.Props.ForRange
import Verif.Model.FxpNumbers
import Verif.Props.FxpNumbers
import Verif.Model.ReplaceFields
import Verif.Props.ReplaceFields
import Verif.Model.Lists
import Verif.Props.Lists
import Verif.Model.Encodings
import Verif.Props.Encodings
import Verif.Model.IndexOn
import Verif.Props.IndexOn
import Verif.Model.FindFile
import Verif.Props.FindFile
import Verif.Model.ForEach
import Verif.Props.ForEach
import Verif.Model.Inherit
import Verif.Props.Inherit
import Verif.Model.Includes
import Verif.Props.Includes
import Verif.Model.MemoFile
import Verif.Props.MemoFile
import Verif.Model.Assert
import Verif.Props.Assert
import Verif.Model.Shown
import Verif.Props.Shown
import Verif.Model.Clock
import Verif.Props.Clock
import Verif.Model.AppendFrom
import Verif.Props.AppendFrom
