/-!
# Lists of names

`names["ab", "c"]` is `[['a', 'b'], ['c']]`, which the kernel evaluates much faster than
`["ab", "c"].map String.toList`.
-/
open Lean in
macro "names[" ss:str,* "]" : term => do
  let elems ← ss.getElems.mapM fun s => do
    let cs := (s.getString.toList.map fun c => Syntax.mkCharLit c).toArray
    `([$cs,*])
  `(([$elems,*] : List (List Char)))
