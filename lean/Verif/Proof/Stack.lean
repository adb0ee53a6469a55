import Verif.Spec.Calls
import Verif.Proof.Enc

/-! # Lemmas: call sequences are trees -/

namespace PdfW
open Spec

theorem calls_append (w : WState) (a b : List Call) : w.calls (a ++ b) = (w.calls a).bind (fun w' => w'.calls b) := by
  induction a generalizing w with
  | nil => simp [WState.calls]
  | cons c a ih =>
    simp only [List.cons_append, WState.calls]
    cases w.call c with
    | none => rfl
    | some w' => exact ih w'

mutual
theorem calls_prog (p : Prog) (S : List Writer) (o : Obj) (buf : Buf) :
    WState.calls ⟨S, some o, buf⟩ (progCalls p) = some ⟨S, none, p.run o buf⟩ := by
  match p with
  | .prim p => simp [progCalls, WState.calls, WState.call, Prog.run]
  | .array items =>
    simp only [progCalls, WState.calls, WState.call, Arr.start, calls_append]
    rw [calls_items items]
    simp [WState.calls, WState.call, Prog.run, Arr.start]
  | .dict entries =>
    simp only [progCalls, WState.calls, WState.call, Dict.start, calls_append]
    rw [calls_entries entries]
    simp [WState.calls, WState.call, Prog.run, Dict.start]
  | .unused => simp [progCalls, WState.calls, WState.call, Prog.run]
termination_by structural p
theorem calls_items (xs : List Prog) (S : List Writer) (a : Arr) (buf : Buf) :
    WState.calls ⟨.arr a :: S, none, buf⟩ (itemsCalls xs) = some ⟨.arr (runItems xs a buf).2 :: S, none, (runItems xs a buf).1⟩ := by
  match xs with
  | [] => simp [itemsCalls, WState.calls, runItems]
  | x :: xs =>
    simp only [itemsCalls, WState.calls, WState.call, calls_append]
    rw [calls_prog x]
    simp only [Option.bind_some]
    rw [calls_items xs]
    simp [runItems]
termination_by structural xs
theorem calls_entries (es : List (Bytes × Prog)) (S : List Writer) (d : Dict) (buf : Buf) :
    WState.calls ⟨.dict d :: S, none, buf⟩ (entriesCalls es) =
      some ⟨.dict (runEntries es d buf).2 :: S, none, (runEntries es d buf).1⟩ := by
  match es with
  | [] => simp [entriesCalls, WState.calls, runEntries]
  | (k, v) :: es =>
    simp only [entriesCalls, WState.calls, WState.call, calls_append]
    rw [calls_prog v]
    simp only [Option.bind_some]
    rw [calls_entries es]
    simp [runEntries]
termination_by structural es
end

/-- Every call sequence that ends with no open writer decomposes along the structure of a tree. -/
theorem calls_decompose (n : Nat) :
    (∀ cs, cs.length ≤ n → ∀ S o buf buf', WState.calls ⟨S, some o, buf⟩ cs = some ⟨[], none, buf'⟩ →
      ∃ p cs', cs = progCalls p ++ cs' ∧ cs'.length < cs.length ∧ WState.calls ⟨S, none, p.run o buf⟩ cs' = some ⟨[], none, buf'⟩) ∧
    (∀ cs, cs.length ≤ n → ∀ S a buf buf', WState.calls ⟨.arr a :: S, none, buf⟩ cs = some ⟨[], none, buf'⟩ →
      ∃ xs cs', cs = itemsCalls xs ++ .finish :: cs' ∧
        WState.calls ⟨S, none, (runItems xs a buf).2.drop (runItems xs a buf).1⟩ cs' = some ⟨[], none, buf'⟩) ∧
    (∀ cs, cs.length ≤ n → ∀ S d buf buf', WState.calls ⟨.dict d :: S, none, buf⟩ cs = some ⟨[], none, buf'⟩ →
      ∃ es cs', cs = entriesCalls es ++ .finish :: cs' ∧
        WState.calls ⟨S, none, (runEntries es d buf).2.drop (runEntries es d buf).1⟩ cs' = some ⟨[], none, buf'⟩) := by
  induction n with
  | zero =>
    refine ⟨?_, ?_, ?_⟩ <;> intro cs hcs <;> (have : cs = [] := by cases cs <;> simp_all) <;> subst this <;>
      intro _ _ _ _ h <;> simp [WState.calls] at h
  | succ n ih =>
    obtain ⟨ih1, ih2, ih3⟩ := ih
    refine ⟨?_, ?_, ?_⟩
    · intro cs hcs S o buf buf' h
      cases cs with
      | nil => simp [WState.calls] at h
      | cons c cs =>
        simp only [List.length_cons] at hcs
        cases c with
        | primitive p =>
          simp only [WState.calls, WState.call] at h
          exact ⟨.prim p, cs, by simp [progCalls], by simp, by simpa [Prog.run] using h⟩
        | array =>
          simp only [WState.calls, WState.call] at h
          obtain ⟨xs, cs', hx, hc⟩ := ih2 cs (by omega) _ _ _ _ h
          refine ⟨.array xs, cs', by simp [progCalls, hx], ?_, by simpa [Prog.run] using hc⟩
          rw [hx]; simp; omega
        | dict =>
          simp only [WState.calls, WState.call] at h
          obtain ⟨xs, cs', hx, hc⟩ := ih3 cs (by omega) _ _ _ _ h
          refine ⟨.dict xs, cs', by simp [progCalls, hx], ?_, by simpa [Prog.run] using hc⟩
          rw [hx]; simp; omega
        | abandon =>
          simp only [WState.calls, WState.call] at h
          exact ⟨.unused, cs, by simp [progCalls], by simp, by simpa [Prog.run] using h⟩
        | push => simp [WState.calls, WState.call] at h
        | insert k => simp [WState.calls, WState.call] at h
        | finish => simp [WState.calls, WState.call] at h
    · intro cs hcs S a buf buf' h
      cases cs with
      | nil => simp [WState.calls] at h
      | cons c cs =>
        simp only [List.length_cons] at hcs
        cases c with
        | push =>
          simp only [WState.calls, WState.call] at h
          obtain ⟨p, cs', hx, hl, hc⟩ := ih1 cs (by omega) _ _ _ _ h
          obtain ⟨xs, cs'', hy, hd⟩ := ih2 cs' (by omega) _ _ _ _ hc
          exact ⟨p :: xs, cs'', by simp [itemsCalls, hx, hy], by simpa [runItems] using hd⟩
        | finish =>
          simp only [WState.calls, WState.call] at h
          exact ⟨[], cs, by simp [itemsCalls], by simpa [runItems] using h⟩
        | primitive p => simp [WState.calls, WState.call] at h
        | array => simp [WState.calls, WState.call] at h
        | dict => simp [WState.calls, WState.call] at h
        | insert k => simp [WState.calls, WState.call] at h
        | abandon => simp [WState.calls, WState.call] at h
    · intro cs hcs S d buf buf' h
      cases cs with
      | nil => simp [WState.calls] at h
      | cons c cs =>
        simp only [List.length_cons] at hcs
        cases c with
        | insert k =>
          simp only [WState.calls, WState.call] at h
          obtain ⟨p, cs', hx, hl, hc⟩ := ih1 cs (by omega) _ _ _ _ h
          obtain ⟨xs, cs'', hy, hd⟩ := ih3 cs' (by omega) _ _ _ _ hc
          exact ⟨(k, p) :: xs, cs'', by simp [entriesCalls, hx, hy], by simpa [runEntries] using hd⟩
        | finish =>
          simp only [WState.calls, WState.call] at h
          exact ⟨[], cs, by simp [entriesCalls], by simpa [runEntries] using h⟩
        | primitive p => simp [WState.calls, WState.call] at h
        | array => simp [WState.calls, WState.call] at h
        | dict => simp [WState.calls, WState.call] at h
        | push => simp [WState.calls, WState.call] at h
        | abandon => simp [WState.calls, WState.call] at h

theorem calls_empty (buf buf' : Buf) (cs : List Call) (h : WState.calls ⟨[], none, buf⟩ cs = some ⟨[], none, buf'⟩) :
    cs = [] ∧ buf = buf' := by
  cases cs with
  | nil => simp [WState.calls] at h; exact ⟨rfl, h⟩
  | cons c cs => cases c <;> simp [WState.calls, WState.call] at h

theorem calls_tree (cs : List Call) (o : Obj) (buf buf' : Buf)
    (h : WState.calls ⟨[], some o, buf⟩ cs = some ⟨[], none, buf'⟩) :
    ∃ p, cs = progCalls p ∧ buf' = p.run o buf := by
  obtain ⟨p, cs', h1, -, h2⟩ := (calls_decompose cs.length).1 cs (Nat.le_refl _) [] o buf buf' h
  obtain ⟨h3, h4⟩ := calls_empty _ _ _ h2
  exact ⟨p, by rw [h1, h3, List.append_nil], h4.symm⟩

end PdfW
