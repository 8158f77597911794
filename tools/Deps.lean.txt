import Verif
import Lean
open Lean
/-- For every property theorem, the Verif constants its statement and proof transitively use. -/
partial def close (env : Environment) (ok : Name → Bool) (todo : List Name) (seen : NameSet) : NameSet :=
  match todo with
  | [] => seen
  | n :: r =>
    if seen.contains n || !ok n then close env ok r seen
    else match env.find? n with
      | none => close env ok r seen
      | some c => close env ok (c.getUsedConstantsAsSet.toList ++ r) (seen.insert n)
run_cmd
  let env ← getEnv
  let mods := env.header.moduleNames
  let modOf (n : Name) : Option Name := (env.getModuleIdxFor? n).map fun i => mods[i.toNat]!
  let ok (n : Name) : Bool := match modOf n with | some m => (`Verif).isPrefixOf m | none => false
  let mut out := #[]
  for (n, c) in env.constants.map₁.toList do
    if ok n then
      if let .thmInfo _ := c then
        let s := n.getString!
        if (`Verif.Props).isPrefixOf (modOf n).get! && s.length > 4 && s.front == 'C' && (s.toList[1]!).isDigit && (s.toList[3]! == '_' || s.toList[4]! == '_') then
          let d := close env ok [n] {}
          let ds := d.toList.map fun x => ((modOf x).get!.toString ++ ":" ++ (privateToUserName x).toString)
          out := out.push (n.toString, ds)
  IO.FS.writeFile "/tmp/deps/deps.json" (toString (Json.mkObj (out.toList.map fun (a, b) => (a, Json.arr (b.map Json.str).toArray))))
