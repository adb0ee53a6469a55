/-!
# Bytes

Base vocabulary shared by the model and the specification: byte strings are `List UInt8`,
`b!"…"` is notation for an explicit list of byte literals.
-/

namespace PdfW

/-- Byte strings (`Vec<u8>` / `&[u8]` in the Rust code). -/
abbrev Bytes := List UInt8

open Lean in
/-- `b!"abc"` is the explicit byte list `[97, 98, 99]`; `b! "…"` only accepts characters below 256. -/
macro:max "b!" s:str : term => do
  let cs := s.getString.toList
  let nums ← cs.mapM fun c => do
    if c.toNat < 256 then pure (Syntax.mkNumLit (toString c.toNat))
    else Macro.throwError "b!: character out of byte range"
  let arr : Array (TSyntax `term) := nums.toArray.map fun n => ⟨n⟩
  `(([$arr,*] : List UInt8))

/-- Exhaustive reasoning over the 256 bytes. -/
theorem forall_byte {P : UInt8 → Prop} (h : ∀ n : Fin 256, P (UInt8.ofNat n.val)) (b : UInt8) : P b := by
  have h1 := h ⟨b.toNat, b.toNat_lt⟩
  simpa using h1

/-- `ch!"c"` is the byte of the single character `c`. -/
macro:max "ch!" s:str : term => do
  match s.getString.toList with
  | [c] =>
    if c.toNat < 256 then
      let stx := Lean.Syntax.mkNumLit (toString c.toNat)
      `(($stx : UInt8))
    else Lean.Macro.throwError "ch!: character out of byte range"
  | _ => Lean.Macro.throwError "ch!: expected one character"

end PdfW
