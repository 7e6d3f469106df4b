import Verif
open Lean
partial def visit (env : Environment) (n : Name) : StateM (NameSet) Unit := do
  if (← get).contains n then return
  modify (·.insert n)
  if let some ci := env.find? n then
    let used := ci.type.getUsedConstants ++ (match ci.value? (allowOpaque := true) with | some v => v.getUsedConstants | none => #[])
    for m in used do
      if (`Vpin).isPrefixOf m then visit env m
run_cmd do
  let env ← getEnv
  let mut out := ""
  for (n, _) in env.constants.map₁.toList do
    let s := n.toString
    if s.startsWith "Vpin." && !n.isInternal && (n.getString!).startsWith "C" then
      let last := n.getString!
      if last.length > 4 && (last.toList.getD 1 'x').isDigit && (last.toList.getD 2 'x').isDigit && (last.toList.getD 3 'x') == '_' then
        let (_, st) := (visit env n).run {}
        out := out ++ s ++ "\t" ++ String.intercalate " " (st.toList.map toString) ++ "\n"
  IO.FS.writeFile "/tmp/mutools/deps.tsv" out
