"""Writes /tmp/deps.json, which declarations the property theorems use, for tools/mutate.py."""
import pathlib, subprocess

query = r'''
import Verif
open Lean

/-! Prints, as JSON, where every declaration of the project is and what every property theorem uses.
Run by `tools/mutate.py` with `lake env lean`. -/

partial def uses (env : Environment) (seen : NameSet) (n : Name) : NameSet :=
  if seen.contains n || (env.getModuleIdxFor? n).isNone then seen else
  let mod := env.header.moduleNames[(env.getModuleIdxFor? n).get!.toNat]!
  if mod.getRoot != `Verif then seen else
  match env.find? n with
  | none => seen
  | some ci =>
    let cs := ci.getUsedConstantsAsSet
    cs.foldl (fun s m => uses env s m) (seen.insert n)

run_cmd do
  let env ← getEnv
  let mut decls : Array Json := #[]
  let mut props : Array Json := #[]
  for (n, _) in env.constants.map₁.toList do
    if let some i := env.getModuleIdxFor? n then
      let mod := env.header.moduleNames[i.toNat]!
      if mod.getRoot == `Verif then
        if let some r ← findDeclarationRanges? n then
          decls := decls.push (Json.arr #[toJson n.toString, toJson mod.toString, toJson r.range.pos.line,
            toJson r.range.endPos.line])
        if (`Chf.Props).isPrefixOf n && (n.getString!.startsWith "C") && !n.isInternal then
          props := props.push (Json.arr #[toJson n.toString,
            Json.arr ((uses env {} n).toList.map (fun m => toJson m.toString)).toArray])
  IO.FS.writeFile "/tmp/deps.json" (Json.mkObj [("decls", .arr decls), ("props", .arr props)]).compress
'''

root = pathlib.Path(__file__).resolve().parent.parent
pathlib.Path('/tmp/deps.lean').write_text(query)
subprocess.run(['lake', 'env', 'lean', '/tmp/deps.lean'], cwd=root / 'lean', check=True)
