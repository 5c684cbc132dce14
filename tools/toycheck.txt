import Lean
import Verif
/-! Lists the theorems that take an `Ext` but whose statement still depends on the toy world (there should be none), and
the claims that are about the toy world only (the witnesses). Copy to a .lean file outside the repository and run `lake env lean` on it. -/
open Lean

partial def usesToy (env : Environment) (n : Name) : StateM (NameMap Bool) Bool := do
  if n == `GoIdentity.Toy.toyExt then return true
  if !(`GoIdentity).isPrefixOf n then return false
  if let some b := (← get).find? n then return b
  modify (·.insert n false)
  let some ci := env.find? n | return false
  let mut es := ci.type.getUsedConstants
  unless ci.isTheorem do
    if let some v := ci.value? then es := es ++ v.getUsedConstants
  let mut r := false
  for c in es do
    if ← usesToy env c then r := true
  modify (·.insert n r)
  return r

run_cmd do
  let env ← getEnv
  let mut st : NameMap Bool := {}
  for (n, ci) in env.constants.toList do
    if (`GoIdentity).isPrefixOf n && ci.isTheorem then
      let (b, st') := (usesToy env n).run st
      st := st'
      let hasExt := ci.type.getUsedConstants.contains `GoIdentity.Ext
      if b && hasExt then logInfo m!"MIXED {n}"
      else if b && ((n.componentsRev.head!.toString.take 1) == "C") then logInfo m!"toy {n}"
