import Verif.Model.ImageUploader
import Verif.Model.Concurrent
/-
The example server examples/image-uploader/src/main.rs in a process with concurrent calls of the crate, which share a bound token
(`USE_SIGN_BLOB=true`, lines 152-155).
-/
namespace CSS.ImageUploader

/-- The calls of the crate run in a process together with any other calls, with this history: `createForm` and `signUrl` have
read the clock, as a time that it can show, started a call in the history and got what it returned. (More than the program can do:
a result may be used twice.) -/
def Crate.sharedAt (clock : Time → Prop) (trace : List CSS.Event) (cfg : Config) : Crate where
  form id n t r := ∃ now : Time, clock now ∧ ((timeLimit ≤ now + 60 * nsPerSec ∧ r = .err .panicked) ∨
    ∃ i x, .started i (.form (createCalls cfg id n t (now + 60 * nsPerSec))) ∈ trace ∧ .returned i (.form x) ∈ trace ∧ r = settle x)
  url id r := ∃ now : Time, clock now ∧ ((timeLimit ≤ now + 60 * nsPerSec ∧ r = .err .panicked) ∨
    ∃ i x, .started i (.url (listOptions cfg id (now + 60 * nsPerSec))) ∈ trace ∧ .returned i (.url x) ∈ trace ∧ r = settle x)

/-- The calls with arbitrary readings of the clock. -/
def Crate.shared (trace : List CSS.Event) (cfg : Config) : Crate := .sharedAt (fun _ => True) trace cfg

end CSS.ImageUploader
