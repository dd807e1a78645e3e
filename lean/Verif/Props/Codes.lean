import Verif.Spec.Codes
import Verif.Props.ErrorMgmt

/-!
# Return codes and error kinds are those of the library's headers (C75, C38)
-/

namespace Pok
open CodeSpec

/-- **C75** The number that the kernel returns for each result is the one that the library's headers give to programs; different results have
different numbers, and only success is zero. -/
theorem C75_codes (e : Errno) : (e, e.code) ∈ errnoNumbers ∧ (e.code = 0 ↔ e = .ok) ∧ ∀ e', e'.code = e.code → e' = e := by
  refine ⟨?_, ?_, ?_⟩
  · cases e <;> decide
  · cases e <;> simp [Errno.code]
  · intro e' h
    revert h
    cases e <;> cases e' <;> simp [Errno.code]

/-- Every number of the table belongs to one result. -/
example : errnoNumbers.length = 25 ∧ (errnoNumbers.map (·.2)).Nodup := by decide

/-- **C60** The number that an ARINC 653 service stores for each return code is the one of the standard; different codes have different
numbers. -/
theorem Arinc.C60_codes (a : Arinc.Code) : (a, a.num) ∈ apexNumbers ∧ ∀ b : Arinc.Code, b.num = a.num → b = a := by
  refine ⟨by cases a <;> decide, ?_⟩
  intro b h
  revert h
  cases a <;> cases b <;> simp [Arinc.Code.num]

/-- Seven codes. -/
example : (apexNumbers.map (·.2)).Nodup ∧ apexNumbers.length = 7 := by decide

namespace Kernel

/-- **C38** When a partition with an error handler has a fault, the status that the handler reads names the kind of the fault, with the
library's number for it; the message is empty. -/
theorem C38_kinds {c : Config} {act : Actions} {k : Kernel} {proc now : Nat} {x : Exc} {kd : Kind}
    (hh : (k.P k.curPart).threadError ≠ 0) (hx : kindOf x = some kd) :
    ∃ k', fault c act proc now k x = some k' ∧
      ∃ st, (errorGet k').2 = (.ok, some st) ∧ st.kind = kd.num ∧ st.msg = [] ∧ st.msgSize = 0 := by
  have hne : x ≠ .doubleFault := by rintro rfl; simp [kindOf] at hx
  have hkind : x.kind = kd.num := by
    cases x <;> simp only [kindOf, Option.some.injEq, reduceCtorEq] at hx <;> (subst hx; rfl)
  refine ⟨(k.setError (declaredStatus proc k x.kind)).activateError proc, ?_, ?_⟩
  · unfold fault raiseKind
    rw [if_neg hne, if_neg hh, errorDeclare, if_pos hh]
    rfl
  · have hs := activate_spec (proc := proc) (k := k.setError (declaredStatus proc k x.kind))
      (by rw [setError_cur, setError_own]; exact hh)
    refine ⟨declaredStatus proc k x.kind, ?_, ?_, rfl, rfl⟩
    · have hcur : (activateError proc (k.setError (declaredStatus proc k x.kind))).curPart = k.curPart := by
        show (activateError proc _).ps.part = _
        rw [hs.2.2.2.2.2]; rfl
      unfold errorGet
      rw [hcur, hs.2.2.2.1, setError_own, if_pos (by show x.kind % 256 ≠ KIND_NONE; cases x <;> decide)]
    · show x.kind % 256 = _
      rw [hkind]
      cases kd <;> rfl

/-- The faults of the processor that reach a handler: all but the double fault. -/
example : (∀ x, x ≠ Exc.doubleFault → (kindOf x).isSome) ∧
    (runE exCfg noAction (exHandler ++ [.fault 0 6 .divide])).map (fun k => (errorGet k).2.2.map (·.kind)) = some (some 12) := by
  refine ⟨by intro x; cases x <;> simp [kindOf], by decide +kernel⟩

end Kernel
end Pok
