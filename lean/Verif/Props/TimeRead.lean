import Verif.Props.Time
import Verif.Lemmas.Iso8601
/-
C47, C48: the crate's own readers undo its renderings.
-/
namespace CSS
open Spec

/-- C47. A text that denotes an instant of the years 0000–9999 in the fixed format is read as that instant. -/
theorem C47_basic_is_read (s : Str) (v : Int) (h : BasicDenotes s v) : UnixTimestamp.fromIso8601 s = .ok ⟨v⟩ := by
  obtain ⟨c, hc, rfl, rfl⟩ := h
  unfold UnixTimestamp.fromIso8601
  rw [parseIso8601_basic hc]
  have hr : -62167219200 ≤ c.unix ∧ c.unix ≤ 253402300799 := by
    have h1 := daysBeforeMonth_day_le c.year c.month c.day hc.month hc.day
    have h2 := daysBeforeYear_mono (a := c.year + 1) (b := 10000) (by have := hc.year; omega)
    have h3 : daysBeforeYear 10000 = 3652425 := by rw [daysBeforeYear_eq]; decide
    rw [daysBeforeYear] at h2
    have := hc.day.1
    have := hc.hour
    have := hc.minute
    have := hc.second
    unfold DateTime.unix
    rw [epoch_day]
    unfold dayNumber
    omega
  simp only [UnixTimestamp.tryFrom, if_pos hr]

/-- C47. The crate's readers give back the timestamp that was rendered, for both renderings. -/
theorem C47_read_back (v : Int) (t : UnixTimestamp) (h : UnixTimestamp.tryFrom v = .ok t) :
    UnixTimestamp.fromIso8601 t.toIso8601 = .ok t ∧ UnixTimestamp.fromRfc3339 t.toRfc3339 = .ok t := by
  have hr : t.InRange ∧ t.val = v := by
    unfold UnixTimestamp.tryFrom at h
    split at h
    · cases h; rename_i h; exact ⟨h, rfl⟩
    · cases h
  obtain ⟨h1, h2, _⟩ := C47_rendering_denotes v t h
  constructor
  · rw [C47_basic_is_read _ _ h1, ← hr.2]
  · exact fromRfc3339_ok.2 ⟨by rw [hr.2]; exact rfc3339_readsAs h2, hr.1⟩

example : UnixTimestamp.fromIso8601 (s% "20240229T235959Z") = .ok ⟨1709251199⟩ ∧
    (⟨1709251199⟩ : UnixTimestamp).toIso8601 = s% "20240229T235959Z" := by decide +kernel
/-- A day that does not exist, an hour that does not exist, and a year out of range. -/
example : UnixTimestamp.fromIso8601 (s% "20230229T000000Z") = .err (.invalidFormat (s% "20230229T000000Z")) ∧
    UnixTimestamp.fromIso8601 (s% "20240229T240000Z") = .err (.invalidFormat (s% "20240229T240000Z")) ∧
    UnixTimestamp.fromIso8601 (s% "-0001 12 31T235959Z") = .err (.outOfRange (-62167219201)) := by decide +kernel
/-- The reader takes more than the renderings: white space, short numbers, and a leap second counted as the second before. -/
example : UnixTimestamp.fromIso8601 (s% " 2024 2 29T23 59 60Z") = .ok ⟨1709251199⟩ := by decide +kernel

/-- C48. Converting an accepted timestamp to a `SystemTime` and back gives it again when it is not before 1970. -/
theorem C48_toSystemTime_back (v : Int) (t : UnixTimestamp) (h : UnixTimestamp.tryFrom v = .ok t) (hv : 0 ≤ v) :
    ∃ time, t.toSystemTime = some time ∧ time = 1000000000 * v ∧ UnixTimestamp.fromSystemTime time = .ok t := by
  have hr : t.InRange ∧ t.val = v := by
    unfold UnixTimestamp.tryFrom at h
    split at h
    · cases h; rename_i h; exact ⟨h, rfl⟩
    · cases h
  obtain ⟨⟨h1, h2⟩, h3⟩ := hr
  refine ⟨1000000000 * v, ?_, rfl, ?_⟩
  · unfold UnixTimestamp.toSystemTime nsPerSec
    simp only
    rw [if_neg (by omega)]
    congr 1
    omega
  · rw [fromSystemTime_ok]
    unfold nsPerSec
    omega

/-- C48. An accepted timestamp before 1970 has no such conversion: the conversion panics. -/
theorem C48_toSystemTime_panics (v : Int) (t : UnixTimestamp) (h : UnixTimestamp.tryFrom v = .ok t) (hv : v < 0) :
    t.toSystemTime = none := by
  unfold UnixTimestamp.tryFrom at h
  split at h
  · cases h
    rename_i h
    simp only [UnixTimestamp.toSystemTime]
    rw [if_pos (by omega)]
  · cases h

example : (⟨1577934245⟩ : UnixTimestamp).toSystemTime = some 1577934245000000000 ∧
    (⟨-1⟩ : UnixTimestamp).toSystemTime = none := by decide

end CSS
