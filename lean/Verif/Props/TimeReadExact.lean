import Verif.Props.TimeRead
import Verif.Lemmas.Iso8601Read
/-
C47: exactly which texts the basic-format reader reads, and as which instants.
-/
namespace CSS
open Spec

/-- C47. The basic-format reader reads a text as a timestamp exactly when the text is one of the accepted texts and the
timestamp is its instant. -/
theorem C47_basic_read_iff (s : Str) (t : UnixTimestamp) :
    UnixTimestamp.fromIso8601 s = .ok t ↔ BasicReadsAs s t.val := by
  constructor
  · intro h
    unfold UnixTimestamp.fromIso8601 at h
    split at h
    · cases h
    · rename_i n e
      unfold UnixTimestamp.tryFrom at h
      split at h
      · rename_i h'
        split at h'
        · rename_i hr; cases h'; cases h
          exact (parseIso8601_iff hr).1 e
        · cases h'
      · cases h
      · cases h
  · intro h
    have hr : -62167219200 ≤ t.val ∧ t.val ≤ 253402300799 := by
      obtain ⟨c, _, _, _, _, _, _, _, hc, _, _, _, _, _, _, _, _, e⟩ := h
      have hok := C47_basic_is_read c.basic c.unix ⟨c, hc, rfl, rfl⟩
      unfold UnixTimestamp.fromIso8601 at hok
      rw [parseIso8601_basic hc] at hok
      simp only [UnixTimestamp.tryFrom] at hok
      rw [e]
      split at hok
      · rename_i h'
        split at h'
        · rename_i hr; exact hr
        · cases h'
      · cases hok
      · cases hok
    unfold UnixTimestamp.fromIso8601
    rw [(parseIso8601_iff hr).2 h]
    simp only [UnixTimestamp.tryFrom, if_pos hr]

/-- C47. So no text is read as two instants. -/
theorem C47_basic_read_unique (s : Str) (v v' : Int) (h : BasicReadsAs s v) (h' : BasicReadsAs s v') : v = v' := by
  have h1 := (C47_basic_read_iff s ⟨v⟩).2 h
  have h2 := (C47_basic_read_iff s ⟨v'⟩).2 h'
  rw [h1] at h2
  cases h2
  rfl

/-- Short numbers, white space, a sign and a leap second. -/
example : BasicReadsAs (s% " +2024 2 29T23 59 60Z") 1709251199 := by
  have := (C47_basic_read_iff (s% " +2024 2 29T23 59 60Z") ⟨1709251199⟩).1 (by decide +kernel)
  exact this
/-- After a sign all digits belong to the year: here month and day are missing. -/
example : ¬ ∃ v, BasicReadsAs (s% "+20240229T000000Z") v := by
  rintro ⟨v, h⟩
  have := (C47_basic_read_iff _ ⟨v⟩).2 h
  have e : UnixTimestamp.fromIso8601 (s% "+20240229T000000Z") = .err (.invalidFormat (s% "+20240229T000000Z")) := by decide +kernel
  rw [e] at this
  cases this
example : ¬ BasicReadsAs (s% "20230229T000000Z") 1677628800 := by
  intro h
  have := (C47_basic_read_iff _ ⟨1677628800⟩).2 h
  have e : UnixTimestamp.fromIso8601 (s% "20230229T000000Z") = .err (.invalidFormat (s% "20230229T000000Z")) := by decide +kernel
  rw [e] at this
  cases this

end CSS
