import Verif.Lemmas.Stamp
/-
C47 (timestamps render injectively and chronologically) and C48 (out-of-range times are rejected).
-/
namespace CSS
open Spec

/-- C48. A `SystemTime` (nanoseconds since the epoch) is accepted iff it lies in
[1970-01-01T00:00:00Z, 10000-01-01T00:00:00Z); the accepted value is the number of whole seconds. -/
theorem C48_systemTime_accepted (t : Time) (u : UnixTimestamp) :
    UnixTimestamp.fromSystemTime t = .ok u ↔
      0 ≤ t ∧ t < 1000000000 * ((⟨9999, 12, 31, 23, 59, 59⟩ : DateTime).unix + 1) ∧
        1000000000 * u.val ≤ t ∧ t < 1000000000 * (u.val + 1) := by
  have h9999 : (⟨9999, 12, 31, 23, 59, 59⟩ : DateTime).unix = 253402300799 := by
    simp [DateTime.unix, dayNumber, daysBeforeYear_eq, yearDelta, daysBeforeMonth, daysInMonth, LeapYear]
  rw [fromSystemTime_ok, h9999]
  unfold nsPerSec
  omega

/-- C48. Nothing else happens: no panic, no wrap-around; the only other outcome is an error. -/
theorem C48_systemTime_rejected (t : Time) :
    (∃ e, UnixTimestamp.fromSystemTime t = .err e) ↔ t < 0 ∨ 253402300800 * 1000000000 ≤ t := by
  unfold UnixTimestamp.fromSystemTime UnixTimestamp.tryFrom nsPerSec
  constructor
  · rintro ⟨e, h⟩
    by_cases h1 : t < 0
    · exact .inl h1
    · rw [if_neg h1] at h
      simp only at h
      by_cases h2 : 9223372036854775807 < t / 1000000000
      · right; omega
      · rw [if_neg h2] at h
        by_cases h3 : -62167219200 ≤ t / 1000000000 ∧ t / 1000000000 ≤ 253402300799
        · rw [if_pos h3] at h; cases h
        · right; omega
  · intro h
    by_cases h1 : t < 0
    · exact ⟨_, by rw [if_pos h1]⟩
    · rw [if_neg h1]
      simp only
      by_cases h2 : 9223372036854775807 < t / 1000000000
      · exact ⟨_, by rw [if_pos h2]⟩
      · rw [if_neg h2, if_neg (by omega)]; exact ⟨_, rfl⟩

/-- The last accepted nanosecond, and its successor. -/
example : UnixTimestamp.fromSystemTime (253402300800 * nsPerSec - 1) = .ok ⟨253402300799⟩ := by decide
example : UnixTimestamp.fromSystemTime (253402300800 * nsPerSec) = .err (.outOfRange 253402300800) := by decide
example : UnixTimestamp.fromSystemTime (-1) = .err (.outOfRange 0) := by decide

/-- C47. For every timestamp accepted by the crate (years 0000–9999) the basic rendering is
`YYYYMMDDTHHMMSSZ` and the policy rendering `YYYY-MM-DDTHH:MM:SSZ` of exactly that instant in the
proleptic Gregorian calendar. -/
theorem C47_rendering_denotes (v : Int) (t : UnixTimestamp) (h : UnixTimestamp.tryFrom v = .ok t) :
    BasicDenotes t.toIso8601 v ∧ Rfc3339Denotes t.toRfc3339 v ∧
      t.toIso8601.length = 16 ∧ t.toRfc3339.length = 20 := by
  have hr : t.InRange ∧ t.val = v := by
    unfold UnixTimestamp.tryFrom at h
    split at h
    · cases h; rename_i h; exact ⟨h, rfl⟩
    · cases h
  obtain ⟨hr, hv⟩ := hr
  have hc := civil_spec t hr
  refine ⟨⟨_, hc.1, toIso8601_eq t hr, by rw [hc.2, hv]⟩, ⟨_, hc.1, toRfc3339_eq t hr, by rw [hc.2, hv]⟩, ?_, ?_⟩
  · rw [toIso8601_eq t hr]; simp [DateTime.basic, DateTime.yyyymmdd, d2, d4]
  · rw [toRfc3339_eq t hr]; simp [DateTime.rfc3339, d2, d4]

/-- C47. String order is chronological order, for both renderings (hence both are injective). -/
theorem C47_order_and_injective (a b : Int) (s t : UnixTimestamp)
    (ha : UnixTimestamp.tryFrom a = .ok s) (hb : UnixTimestamp.tryFrom b = .ok t) :
    (a < b ↔ LexLt s.toIso8601 t.toIso8601) ∧ (a < b ↔ LexLt s.toRfc3339 t.toRfc3339) ∧
    (s.toIso8601 = t.toIso8601 ↔ a = b) ∧ (s.toRfc3339 = t.toRfc3339 ↔ a = b) := by
  obtain ⟨⟨c, hc, hcs, hca⟩, ⟨c2, hc2, hcs2, hca2⟩, _⟩ := C47_rendering_denotes a s ha
  obtain ⟨⟨d, hd, hds, hdb⟩, ⟨d2, hd2, hds2, hdb2⟩, _⟩ := C47_rendering_denotes b t hb
  have asym : ∀ x y : Str, LexLt x y → LexLt y x → False := by
    intro x
    induction x with
    | nil => intro y h1 h2; cases y <;> simp [LexLt] at h1 h2
    | cons p x ih =>
      intro y h1 h2
      cases y with
      | nil => simp [LexLt] at h1
      | cons q y =>
        simp only [LexLt] at h1 h2
        rcases h1 with h1 | ⟨rfl, h1⟩
        · rcases h2 with h2 | ⟨rfl, h2⟩
          · omega
          · omega
        · rcases h2 with h2 | ⟨_, h2⟩
          · omega
          · exact ih y h1 h2
  have key1 : (a < b ↔ LexLt s.toIso8601 t.toIso8601) ∧ (s.toIso8601 = t.toIso8601 ↔ a = b) := by
    rw [hcs, hds, ← hca, ← hdb]
    rcases stamp_cases c d hc hd with ⟨h1, h2, _⟩ | ⟨h1, h2, _⟩ | rfl
    · refine ⟨⟨fun _ => h2, fun _ => h1⟩, ⟨fun e => ?_, fun e => by omega⟩⟩
      rw [e] at h2; exact absurd h2 (lexLt_irrefl _)
    · refine ⟨⟨fun h => by omega, fun h => absurd h2 (fun h2 => asym _ _ h h2)⟩, ⟨fun e => ?_, fun e => by omega⟩⟩
      rw [e] at h2; exact absurd h2 (lexLt_irrefl _)
    · exact ⟨⟨fun h => by omega, fun h => absurd h (lexLt_irrefl _)⟩, by simp⟩
  have key2 : (a < b ↔ LexLt s.toRfc3339 t.toRfc3339) ∧ (s.toRfc3339 = t.toRfc3339 ↔ a = b) := by
    rw [hcs2, hds2, ← hca2, ← hdb2]
    rcases stamp_cases c2 d2 hc2 hd2 with ⟨h1, _, h2⟩ | ⟨h1, _, h2⟩ | rfl
    · refine ⟨⟨fun _ => h2, fun _ => h1⟩, ⟨fun e => ?_, fun e => by omega⟩⟩
      rw [e] at h2; exact absurd h2 (lexLt_irrefl _)
    · refine ⟨⟨fun h => by omega, fun h => absurd h2 (fun h2 => asym _ _ h h2)⟩, ⟨fun e => ?_, fun e => by omega⟩⟩
      rw [e] at h2; exact absurd h2 (lexLt_irrefl _)
    · exact ⟨⟨fun h => by omega, fun h => absurd h (lexLt_irrefl _)⟩, by simp⟩
  exact ⟨key1.1, key2.1, key1.2, key2.2⟩

/-- The hypotheses are met by the first and the last representable second. -/
example : UnixTimestamp.tryFrom (-62167219200) = .ok ⟨-62167219200⟩ ∧
    UnixTimestamp.tryFrom 253402300799 = .ok ⟨253402300799⟩ := by decide

end CSS
