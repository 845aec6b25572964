import Verif
/-! Prints, for every property theorem, the Verif declarations its statement and proof rest on. -/
open Lean
def isProp (n : Name) : Bool := match n with
  | .str _ s => s.length > 4 && s.front == 'c' && ((s.drop 3).front == '_' && ((s.drop 1).take 2).toString.all Char.isDigit || (s.drop 4).front == '_' && ((s.drop 1).take 3).toString.all Char.isDigit)
  | _ => false
partial def go (env : Environment) (todo : List Name) (seen : NameSet) : NameSet := match todo with
  | [] => seen
  | n :: r =>
    if seen.contains n then go env r seen else
    match env.getModuleIdxFor? n with
    | some i => if (`Verif).isPrefixOf env.header.moduleNames[i.toNat]! then
        match env.find? n with
        | some c => go env (c.getUsedConstantsAsSet.toList ++ r) (seen.insert n)
        | none => go env r seen
      else go env r seen
    | none => go env r seen
run_cmd do
  let env ← getEnv
  for (n, c) in env.constants.map₁.toList do
    if let .thmInfo _ := c then
      if isProp n then
        if let some i := env.getModuleIdxFor? n then
          if (`Verif.Props).isPrefixOf env.header.moduleNames[i.toNat]! then
            let s := go env [n] {}
            logInfo m!"DEP {n} {" ".intercalate (s.toList.map toString)}"
