import Verif.Proof.Float
import Verif.Proof.Text
import Verif.Spec.Denotes

/-! # Lemmas: the bytes and limits produced by writer calls -/

set_option linter.unusedSimpArgs false
set_option linter.unusedVariables false

namespace PdfW
open Spec

/-- Spelling of a rectangle. -/
def rectBytes (r : Rect) : Bytes :=
  ch!"[" :: (r.x1.realBytes ++ ch!" " :: (r.y1.realBytes ++ ch!" " :: (r.x2.realBytes ++ ch!" " :: (r.y2.realBytes ++ [ch!"]"]))))

/-- Spelling of a primitive. -/
def primBytes : Prim → Bytes
  | .null => b!"null"
  | .bool v => if v then b!"true" else b!"false"
  | .int v => intBytes v
  | .real v => v.realBytes
  | .str s => strBytes s
  | .textStr t => textBytes t
  | .textStrLang segs => langBytes segs
  | .name n => nameBytes n
  | .ref r => intBytes r.id ++ b!" 0 R"
  | .rect r => rectBytes r
  | .date d => ch!"(" :: (dateContent d ++ [ch!")"])

/-- Effect of a primitive on the limits. -/
def primLimits : Prim → Limits → Limits
  | .null, l => l
  | .bool _, l => l
  | .int v, l => l.registerInt v
  | .real v, l => v.realLimits l
  | .str s, l => l.registerStrLen s.length
  | .textStr t, l => l.registerStrLen (utf8 t).length
  | .textStrLang segs, l => l.registerStrLen (langLen segs)
  | .name n, l => l.registerNameLen n.length
  | .ref r, l => l.registerInt r.id
  | .rect r, l => (r.y2.realLimits (r.x2.realLimits (r.y1.realLimits (r.x1.realLimits l)))).registerArrayLen 4
  | .date _, l => l

theorem Prim.write_eq (p : Prim) (buf : Buf) :
    p.write buf = ⟨buf.inner ++ primBytes p, primLimits p buf.limits⟩ := by
  cases p with
  | null => rfl
  | bool v => cases v <;> rfl
  | int v => exact pushInt_eq _ _
  | real v => exact pushFloat_eq _ _
  | str s => exact writeStr_eq _ _
  | textStr t => exact writeTextStr_eq _ _
  | textStrLang segs => exact writeTextStrLang_eq _ _
  | name n => exact writeName_eq _ _
  | ref r => simp [Prim.write, writeRef, pushInt_eq, primBytes, primLimits, Ref.get, Buf.extend]
  | rect r => simp [Prim.write, writeRect, pushFloat_eq, primBytes, primLimits, rectBytes, Buf.push]
  | date d => exact writeDate_eq _ _

theorem F32.realBytes_ne_nil (v : F32) : v.realBytes ≠ [] := by
  unfold F32.realBytes
  split
  · exact intBytes_ne_nil _
  · unfold F32.decimalBytes
    split
    · unfold F32.ryuFormat
      split
      · simp
      · split
        · simp
        · split
          · simp
          · obtain ⟨b, r, e, -⟩ := F32.ryuLayout_head (F32.shortest v.mag.val).1 (38 - ((F32.shortest v.mag.val).2 : Int))
            rw [e]; split <;> simp
    · unfold F32.displayFormat
      split
      · simp
      · split
        · simp
        · split
          · simp
          · obtain ⟨b, r, e, -⟩ := F32.displayLayout_head (F32.shortest v.mag.val).1 (38 - ((F32.shortest v.mag.val).2 : Int))
            rw [e]; split <;> simp

theorem primBytes_ne_nil (p : Prim) : primBytes p ≠ [] := by
  cases p with
  | bool v => cases v <;> simp [primBytes]
  | int v => exact intBytes_ne_nil _
  | real v => exact F32.realBytes_ne_nil _
  | str s => simp only [primBytes, strBytes]; split <;> simp
  | textStr t => simp only [primBytes, textBytes, strBytes]; split <;> (try split) <;> simp
  | _ => simp [primBytes, langBytes, nameBytes, rectBytes]

/-! ## Pure spelling of trees -/

/-- The padding before a primitive. -/
def padOf (pad : Bool) (last : Option UInt8) (p : Prim) : Bytes :=
  if pad && !p.startsWithDelimiter && !last.any isDelimiterCharacter then b!" " else []

def spaces (n : Nat) : Bytes := List.replicate n ch!" "

/-- The separator before an item of an array. -/
def itemSep (pretty first : Bool) : Bytes := if !first && pretty then b!" " else []

/-- Line break and indentation in pretty mode. -/
def lineSep (pretty : Bool) (indent : Nat) : Bytes := if pretty then ch!"\n" :: spaces indent else []

/-- White space between key and value in pretty mode. -/
def keySep (pretty : Bool) : Bytes := if pretty then b!" " else []

mutual
/-- Spelling of an object. `pad` is `needs_padding`, `last` the last byte in the buffer. -/
def enc (pretty : Bool) (indent : Nat) (pad : Bool) (last : Option UInt8) : Prog → Bytes
  | .prim p => padOf pad last p ++ primBytes p
  | .array items => ch!"[" :: (encItems pretty indent true (some ch!"[") items ++ [ch!"]"])
  | .dict entries =>
    b!"<<" ++ (encEntries pretty (saturatingAdd indent 2) entries ++
      (lineSep (!entries.isEmpty && pretty) (saturatingAdd indent 2 - 2) ++ b!">>"))
  | .unused => []
termination_by structural p => p
/-- Spelling of the items of an array. -/
def encItems (pretty : Bool) (indent : Nat) (first : Bool) (last : Option UInt8) : List Prog → Bytes
  | [] => []
  | x :: xs =>
    (itemSep pretty first ++ enc pretty indent (!first && !pretty) last x) ++
      encItems pretty indent false ((itemSep pretty first ++ enc pretty indent (!first && !pretty) last x).getLast?.or last) xs
termination_by structural p => p
/-- Spelling of the entries of a dictionary. -/
def encEntries (pretty : Bool) (indent : Nat) : List (Bytes × Prog) → Bytes
  | [] => []
  | (k, v) :: es =>
    lineSep pretty indent ++ (nameBytes k ++ (keySep pretty ++
      (enc pretty indent (!pretty) (nameBytes k).getLast? v ++ encEntries pretty indent es)))
termination_by structural p => p
end

mutual
/-- Effect of an object on the limits. -/
def progLimits : Prog → Limits → Limits
  | .prim p, l => primLimits p l
  | .array items, l => (itemsLimits items l).registerArrayLen items.length
  | .dict entries, l => (entriesLimits entries l).registerDictEntries entries.length
  | .unused, l => l
termination_by structural p => p
def itemsLimits : List Prog → Limits → Limits
  | [], l => l
  | x :: xs, l => itemsLimits xs (progLimits x l)
termination_by structural p => p
def entriesLimits : List (Bytes × Prog) → Limits → Limits
  | [], l => l
  | (k, v) :: es, l => entriesLimits es (progLimits v (l.registerNameLen k.length))
termination_by structural p => p
end

/-- The `Obj` was used. -/
def Prog.used : Prog → Bool
  | .unused => false
  | _ => true

theorem enc_ne_nil (pretty : Bool) (indent : Nat) (pad : Bool) (last : Option UInt8) (p : Prog) (h : p.used = true) :
    enc pretty indent pad last p ≠ [] := by
  cases p <;> simp [enc, primBytes_ne_nil, Prog.used] at h ⊢

theorem used_iff (p : Prog) : p.used = true ↔ p ≠ .unused := by cases p <;> simp [Prog.used]

theorem used_of_mem {xs : List Prog} (h : Prog.unused ∉ xs) {x : Prog} (hx : x ∈ xs) : x.used = true := by
  rw [used_iff]; rintro rfl; exact h hx

theorem used_of_ok (p : Prog) (h : Ok p) : p.used = true := by cases p <;> simp [Ok, Prog.used] at h ⊢

theorem last_or {pre : Bytes} {pretty : Bool} {indent : Nat} {pad : Bool} {last other : Option UInt8} (p : Prog) (h : p.used = true) :
    (pre ++ enc pretty indent pad last p).getLast?.or other = (pre ++ enc pretty indent pad last p).getLast? := by
  cases hl : (pre ++ enc pretty indent pad last p).getLast? with
  | none => simp at hl; exact absurd hl.1 (enc_ne_nil _ _ _ _ p h)
  | some x => rfl

/-- What follows an indirect object. -/
def tailBytes (indirect pretty : Bool) : Bytes :=
  if indirect then b!"\nendobj\n" ++ (if pretty then b!"\n" else []) else []

theorem finishIndirect_eq (i p : Bool) (buf : Buf) : finishIndirect i p buf = buf.extend (tailBytes i p) := by
  cases i <;> cases p <;> simp [finishIndirect, tailBytes]

theorem pushSpaces_eq (n : Nat) (buf : Buf) : pushSpaces n buf = buf.extend (spaces n) := by
  unfold pushSpaces spaces
  induction n generalizing buf with
  | zero => simp [Nat.repeat]
  | succ n ih =>
    rw [Nat.repeat, ih, Buf.push_eq, Buf.extend_extend]
    congr 1
    rw [List.replicate_succ']

theorem getLast?_append_ne {a b : Bytes} (h : b ≠ []) : (a ++ b).getLast? = b.getLast? := by
  rw [List.getLast?_append]
  cases h' : b.getLast? with
  | none => simp at h'; exact absurd h' h
  | some x => rfl

theorem lineSep_eq (pretty : Bool) (n : Nat) (buf : Buf) :
    (if pretty then pushSpaces n (buf.push ch!"\n") else buf) = buf.extend (lineSep pretty n) := by
  cases pretty <;> simp [lineSep, pushSpaces_eq, Buf.push_eq]

theorem insert_eq (d : Dict) (k : Bytes) (buf : Buf) :
    d.insert k buf = (⟨buf.inner ++ (lineSep d.pretty d.indent ++ (nameBytes k ++ keySep d.pretty)),
        buf.limits.registerNameLen k.length⟩, { d with len := d.len + 1 }, Obj.direct d.indent d.pretty (!d.pretty)) := by
  unfold Dict.insert
  simp only [lineSep_eq, writeName_eq]
  cases h : d.pretty <;> simp [keySep, Buf.push, Buf.extend]

theorem arrPush_eq (a : Arr) (buf : Buf) :
    a.push buf = (⟨buf.inner ++ itemSep a.pretty (a.len == 0), buf.limits⟩, { a with len := a.len + 1 },
      Obj.direct a.indent a.pretty (!(a.len == 0) && !a.pretty)) := by
  unfold Arr.push itemSep
  rcases Nat.eq_zero_or_pos a.len with h | h
  · simp [h]
  · have : a.len ≠ 0 := by omega
    cases hp : a.pretty <;> simp [this, Buf.push, beq_eq_false_iff_ne.mpr this]

mutual
theorem run_eq (p : Prog) (o : Obj) (buf : Buf) :
    p.run o buf = ⟨buf.inner ++ (enc o.pretty o.indent o.needsPadding buf.inner.getLast? p ++ tailBytes (o.indirect && p.used) o.pretty),
      progLimits p buf.limits⟩ := by
  match p with
  | .prim p =>
    simp only [Prog.run, Obj.primitive, enc, progLimits, Prog.used, Bool.and_true, padOf, Buf.last?, finishIndirect_eq, Prim.write_eq]
    by_cases h : (o.needsPadding && !p.startsWithDelimiter && !Option.any isDelimiterCharacter buf.inner.getLast?) = true
    · simp only [h, if_true]; simp [Buf.extend]
    · simp only [h, if_false]; simp [Buf.extend]
  | .array items =>
    have := runItems_eq items ⟨o.indirect, o.indent, o.pretty, 0⟩ (buf.push ch!"[")
    simp only [Prog.run, Arr.start, this, enc, progLimits, Arr.drop, finishIndirect_eq]
    simp [Buf.push, Buf.extend, getLast?_append_ne, Prog.used]
  | .dict entries =>
    have := runEntries_eq entries ⟨o.indirect, saturatingAdd o.indent 2, o.pretty, 0⟩ (buf.extend b!"<<")
    simp only [Prog.run, Dict.start, this, enc, progLimits, Dict.drop, finishIndirect_eq, lineSep_eq]
    cases entries <;> simp [Buf.push, Buf.extend, Prog.used]
  | .unused => simp [Prog.run, enc, progLimits, tailBytes, Prog.used]
termination_by structural p
theorem runItems_eq (xs : List Prog) (a : Arr) (buf : Buf) :
    runItems xs a buf = (⟨buf.inner ++ encItems a.pretty a.indent (a.len == 0) buf.inner.getLast? xs,
      itemsLimits xs buf.limits⟩, { a with len := a.len + xs.length }) := by
  match xs with
  | [] => simp [runItems, encItems, itemsLimits]
  | x :: xs =>
    simp only [runItems, arrPush_eq]
    rw [run_eq x, runItems_eq xs]
    simp only [Obj.direct, encItems, itemsLimits, tailBytes, Bool.false_and, Bool.false_eq_true, if_false, List.append_nil]
    have hl : (buf.inner ++ itemSep a.pretty (a.len == 0)).getLast?.any isDelimiterCharacter = true ∨ True := Or.inr trivial
    have e1 : enc a.pretty a.indent (!(a.len == 0) && !a.pretty) (buf.inner ++ itemSep a.pretty (a.len == 0)).getLast? x
        = enc a.pretty a.indent (!(a.len == 0) && !a.pretty) buf.inner.getLast? x := by
      unfold itemSep
      cases hp : a.pretty
      · simp
      · -- in pretty mode nothing is padded, so the last byte is irrelevant
        simp only [Bool.not_true, Bool.and_false]
        cases x <;> simp [enc, padOf]
    rw [e1]
    refine Prod.ext ?_ ?_
    · simp only [List.append_assoc, List.getLast?_append (l := buf.inner)]
      simp
    · simp; omega
termination_by structural xs
theorem runEntries_eq (es : List (Bytes × Prog)) (d : Dict) (buf : Buf) :
    runEntries es d buf = (⟨buf.inner ++ encEntries d.pretty d.indent es, entriesLimits es buf.limits⟩,
      { d with len := d.len + es.length }) := by
  match es with
  | [] => simp [runEntries, encEntries, entriesLimits]
  | (k, v) :: es =>
    simp only [runEntries, insert_eq]
    rw [run_eq v, runEntries_eq es]
    simp only [Obj.direct, encEntries, entriesLimits, tailBytes, Bool.false_and, Bool.false_eq_true, if_false, List.append_nil]
    have e1 : enc d.pretty d.indent (!d.pretty) (buf.inner ++ (lineSep d.pretty d.indent ++ (nameBytes k ++ keySep d.pretty))).getLast? v
        = enc d.pretty d.indent (!d.pretty) (nameBytes k).getLast? v := by
      cases hp : d.pretty
      · simp only [lineSep, keySep, Bool.false_eq_true, if_false, List.nil_append, List.append_nil]
        rw [getLast?_append_ne (by simp [nameBytes])]
      · cases v <;> simp [enc, padOf]
    rw [e1]
    refine Prod.ext ?_ ?_
    · simp
    · simp; omega
termination_by structural es
end

end PdfW
