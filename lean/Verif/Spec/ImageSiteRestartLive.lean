import Verif.Spec.ImageSiteLive
import Verif.Spec.ImageSiteRestart
/-
Infinite histories of the site of the example (`Spec/ImageSite`) in which the process of the example server may crash.
-/
namespace CSS.Spec.ImageUploader
open CSS.ImageUploader CSS.Spec

/-- An infinite history of the site with crashes: its states, and what happens at each point; `none` is a crash of the example server. -/
structure CrashHistory (crate : Crate) (cfg : Config) (account : Str) (n e : Nat) (σ : Nat → Site) (what : Nat → Option Happens) :
    Prop where
  begins : ∃ store, σ 0 = ⟨⟨[], []⟩, store, []⟩
  next : ∀ m, (∃ h, what m = some h ∧ SiteMoves crate cfg account n e h (σ m) (σ (m + 1))) ∨
    (what m = none ∧ σ (m + 1) = { σ m with server := (σ m).server.restart })

/-- The event under the mutex of the example server at this point of a history, if there is one, or the crash. -/
def episodeAt (what : Option Happens) (s : Site) : List Episode :=
  match what with
  | none => [.restarted]
  | some (.server (.worked i)) =>
    match s.server.tasks[i]? with
    | some (_, t) => (t.events i).map .event
    | none => []
  | some _ => []

/-- The events of the example server and the crashes before point `m` of a history. -/
def pastAt (σ : Nat → Site) (what : Nat → Option Happens) : Nat → List Episode
  | 0 => []
  | m + 1 => pastAt σ what m ++ episodeAt (what m) (σ m)

/-- Fairness: a handler that has not finished takes its next step, is dropped or ends in a crash sooner or later, and a page goes on sooner
or later if it is not waiting for a handler that has not finished. (If the handler is gone, that is because the `fetch` has failed.) -/
structure CrashFair (σ : Nat → Site) (what : Nat → Option Happens) : Prop where
  handlers : ∀ i m r t, (σ m).server.tasks[i]? = some (r, t) → ¬ Finished t →
    ∃ m', m ≤ m' ∧ (what m' = some (.server (.worked i)) ∨ what m' = some (.server (.dropped i)) ∨ what m' = none)
  pages : ∀ k m file u, (σ m).uploads[k]? = some (file, u) → ¬ UploadEnded u →
    (∀ i r t, u.waits = some i → (σ m).server.tasks[i]? = some (r, t) → Finished t) →
    ∃ m' h, m ≤ m' ∧ what m' = some h ∧ h.goesOn k

/-- The random ids are distinct, also those of different lives of the process. -/
def AllDistinctIds (σ : Nat → Site) (what : Nat → Option Happens) : Prop := ∀ m, (registeredIds (pastAt σ what m)).Nodup

end CSS.Spec.ImageUploader
