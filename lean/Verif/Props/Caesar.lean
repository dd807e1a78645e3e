import Mathlib.Tactic.Common
import Verif.Model.Caesar

/-!
# Round trip of the Caesar protocol (C47)
-/

namespace Pok.Caesar

/-- Exactly the bytes up to 250 survive. -/
theorem dec_enc (x : Nat) (h : x < 256) : dec (enc x) = x ↔ x ≤ 250 := by
  revert x
  decide +kernel

/-- **C47** (part).  Unmarshalling a marshalled message gives the original message for the messages whose bytes are at
most 250, and for no other: one byte from 251 is enough to get another message. -/
theorem C47_roundtrip_partial (bs : List Nat) (h : ∀ b ∈ bs, b < 256) :
    unmarshall (marshall bs) = bs ↔ ∀ b ∈ bs, b ≤ 250 := by
  induction bs with
  | nil => simp [unmarshall, marshall]
  | cons b bs ih =>
    have := ih (fun x hx => h x (List.mem_cons_of_mem _ hx))
    simp only [unmarshall, marshall, List.map_map] at this ⊢
    simp only [List.map_cons, List.cons.injEq, List.forall_mem_cons, this, Function.comp_apply,
      dec_enc b (h b List.mem_cons_self)]

example : unmarshall (marshall [0, 104, 105, 250]) = [0, 104, 105, 250] :=
  (C47_roundtrip_partial _ (by decide)).2 (by decide)

/-- The length is kept. -/
theorem C47_length (bs : List Nat) : (marshall bs).length = bs.length ∧ (unmarshall bs).length = bs.length := by
  simp [marshall, unmarshall]

/-- **C47** fails, and not only because of the decoder: two messages are marshalled alike, so that no decoder can
exist. -/
theorem C47_roundtrip_violated : unmarshall (marshall [251]) = [252] ∧ marshall [0] = marshall [255] := by decide

end Pok.Caesar
