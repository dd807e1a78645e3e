import Verif.Model.Serial
import Verif.Props.Console
/-!
# C128: text written to the serial line, characters and bytes read
-/
namespace Pok.Serial

theorem write_spec (text : List Nat) : ∀ polls : List Bool,
    (write polls text).1 = text.take (polls.count true) ∧ ((write polls text).2.isSome ↔ text.length ≤ polls.count true) ∧
      ∀ rest, (write polls text).2 = some rest → ∃ used, polls = used ++ rest ∧ used.count true = text.length := by
  have w : ∀ polls : List Bool, (waitReady polls = none ∧ polls.count true = 0) ∨
      ∃ l u, waitReady polls = some l ∧ polls = u ++ l ∧ u.count true = 1 := by
    intro polls
    induction polls with
    | nil => exact .inl ⟨rfl, rfl⟩
    | cons b l ih =>
      cases b with
      | true => exact .inr ⟨l, [true], rfl, rfl, rfl⟩
      | false =>
        rcases ih with ⟨h, c⟩ | ⟨l', u, h, e, c⟩
        · exact .inl ⟨h, by rw [List.count_cons]; simp [c]⟩
        · exact .inr ⟨l', false :: u, h, by rw [e]; rfl, by rw [List.count_cons]; simp [c]⟩
  induction text with
  | nil => intro polls; exact ⟨by simp [write], by simp [write], fun rest h => ⟨[], by simpa [write] using h, rfl⟩⟩
  | cons t ts ih =>
    intro polls
    rcases w polls with ⟨h, c⟩ | ⟨l, u, h, e, c⟩
    · simp only [write, h, c]
      exact ⟨rfl, by simp, fun rest q => by cases q⟩
    · obtain ⟨i1, i2, i3⟩ := ih l
      have n : polls.count true = l.count true + 1 := by rw [e, List.count_append, c, Nat.add_comm]
      simp only [write, h, n]
      refine ⟨by rw [i1]; rfl, by rw [i2]; simp, fun rest q => ?_⟩
      obtain ⟨v, a, b⟩ := i3 rest q
      exact ⟨u ++ v, by rw [e, a, List.append_assoc], by rw [List.count_append, c, b]; simp [Nat.add_comm]⟩

/-- **C128** (part) However long the device makes the kernel wait, the bytes on the line are those of the text, in order, none lost and none repeated: as many as the device
was ready for.  The call ends exactly when the device has been ready as often as there are bytes, and has then used the device exactly that often. -/
theorem C128_line_partial (polls : List Bool) (text : List Nat) :
    (write polls text).1 = text.take (polls.count true) ∧ ((write polls text).2.isSome ↔ text.length ≤ polls.count true) ∧
      ∀ rest, (write polls text).2 = some rest → (write polls text).1 = text ∧ ∃ used, polls = used ++ rest ∧ used.count true = text.length := by
  obtain ⟨a, b, c⟩ := write_spec text polls
  refine ⟨a, b, fun rest h => ⟨?_, c rest h⟩⟩
  rw [a]
  exact List.take_of_length_le (b.1 (by rw [h]; rfl))

/-- **C128** (part) Two texts written one after the other appear one after the other. -/
theorem C128_sequence_partial (polls rest : List Bool) (a b : List Nat) (h : (write polls a).2 = some rest) :
    (write polls (a ++ b)).1 = a ++ (write rest b).1 ∧ (write polls (a ++ b)).2 = (write rest b).2 := by
  induction a generalizing polls with
  | nil => simp only [write, Option.some.injEq] at h; subst h; exact ⟨rfl, rfl⟩
  | cons c cs ih =>
    simp only [List.cons_append, write] at h ⊢
    cases e : waitReady polls with
    | none => rw [e] at h; cases h
    | some l =>
      rw [e] at h
      obtain ⟨x, y⟩ := ih l h
      exact ⟨by simp only [x], y⟩

/-- **C128** violated: on PowerPC and SPARC every write to the console is answered `POK_ERRNO_EINVAL`, though the text has been written. -/
theorem C128_answer_violated (b : Board) (hb : b = .ppc ∨ b = .sparc) (s : X86.Cons) (text : List Nat) : answer b s text = some .einval := by
  rcases hb with rfl | rfl <;> rfl

/-- **C128** violated: on x86 a text of control sequences only (clear the screen, colours, positions) is obeyed and answered `POK_ERRNO_EINVAL`, and so is the empty text. -/
theorem C128_control_violated (s : X86.Cons) (y x : Nat) : answer .x86 s [255, 4, y, 255, 3, x] = some .einval ∧ answer .x86 s [] = some .einval := by
  constructor
  · simp only [answer, returned, X86.consWrite]; rfl
  · simp only [answer, returned, X86.consWrite]; rfl

/-- **C128** (part) `getChar` gives the byte that arrived if it is below 128, and -1 if none has arrived. -/
theorem C128_getchar_partial (b : Nat) (h : b < 128) : getChar true (some b) = b ∧ getChar true none = -1 := by
  refine ⟨?_, rfl⟩
  have : b % 256 = b := Nat.mod_eq_of_lt (by omega)
  simp [getChar, readSerial, charInt, this, h]

/-- **C128** (part) If the kernel refuses the address of the variable, whatever has arrived, `getChar` gives -1 as if nothing had. -/
theorem C128_getchar_refused_partial (a : Option Nat) : getChar false a = -1 := by simp [getChar, charInt]

/-- **C128** violated: `getChar` gives a negative number for every byte from 128 on, and does not tell the byte 255 from no byte. -/
theorem C128_getchar_violated : (∀ b, 128 ≤ b → b < 256 → getChar true (some b) = (b : Int) - 256) ∧ getChar true (some 255) = getChar true none := by
  refine ⟨fun b h1 h2 => ?_, rfl⟩
  have : b % 256 = b := Nat.mod_eq_of_lt h2
  simp [getChar, readSerial, charInt, this, Nat.not_lt.2 h1]

/-- **C128** (part) `pok_inb` gives the byte of the device if the partition may use the port, and otherwise the negative error code: the two cannot be confused. -/
theorem C128_inb_partial (allowed : Bool) (byte : Nat) (hb : byte < 256) :
    (allowed = true → inb allowed byte = byte) ∧ (allowed = false → inb allowed byte = -(Errno.eperm.code : Int)) := by
  constructor
  · rintro rfl
    simp only [inb, inbAnswer, if_true, Nat.mod_eq_of_lt hb]
    rw [if_pos (by omega)]
  · rintro rfl
    rfl

example : write [false, true, false, false, true, true] [72, 105] = ([72, 105], some [true]) := by decide
example : write [false, true, false] [72, 105] = ([72], none) := by decide
example : getChar true (some 65) = 65 ∧ inb true 200 = 200 ∧ inb false 0 = -6 := by decide

end Pok.Serial
