import Verif.Model.Thread
import Verif.Spec.Cyclic

/-!
# What a thread scheduler may dispatch

`[low, high)` are the threads of the partition, `proc` a processor.
-/

namespace Pok.Spec

/-- A thread of the partition that may run on the processor: in range, runnable, bound to it. -/
def Eligible (T : Threads) (proc low high i : Nat) : Prop :=
  (low ≤ i ∧ i < high) ∧ (T i).state = .runnable ∧ (T i).affinity = proc

instance (T : Threads) (proc low high i : Nat) : Decidable (Eligible T proc low high i) := by
  unfold Eligible; infer_instance

/-- The current thread is entitled to keep the processor under round robin: it is an eligible thread
with remaining or infinite budget. -/
def Entitled (T : Threads) (proc idle low high cur : Nat) : Prop :=
  Eligible T proc low high cur ∧ cur ≠ idle ∧ ((T cur).remaining > 0 ∨ (T cur).timeCapacity = -1)

instance (T : Threads) (proc idle low high i : Nat) : Decidable (Entitled T proc idle low high i) := by
  unfold Entitled; infer_instance

/-- A value the kernel may record as current or previous thread of a processor: the idle thread or a
thread of the partition. -/
def Recorded (idle low high x : Nat) : Prop := x = idle ∨ (low ≤ x ∧ x < high)

/-- The result of an election is right if it is an eligible thread, or the idle thread while no thread
is eligible. -/
def GoodChoice (T : Threads) (proc idle low high e : Nat) : Prop :=
  Eligible T proc low high e ∨ (e = idle ∧ ∀ i, ¬ Eligible T proc low high i)

/-- `e` is the first eligible thread in the cyclic order strictly after `from`. -/
def NextEligible (T : Threads) (proc low high from_ e : Nat) : Prop :=
  ∃ k, 1 ≤ k ∧ k ≤ high - low ∧ e = cyc low high from_ k ∧ Eligible T proc low high e ∧
    ∀ j, 1 ≤ j → j < k → ¬ Eligible T proc low high (cyc low high from_ j)

/-- `e` has maximal priority among the eligible threads, and it is the first such thread in the cyclic
order starting at `from`. -/
def FirstMaxPriority (T : Threads) (proc low high from_ e : Nat) : Prop :=
  Eligible T proc low high e ∧
  (∀ i, Eligible T proc low high i → (T i).priority ≤ (T e).priority) ∧
  ∃ k < high - low, e = cyc low high from_ k ∧
    ∀ j < k, Eligible T proc low high (cyc low high from_ j) → (T (cyc low high from_ j)).priority < (T e).priority

end Pok.Spec
