import Verif.Model.ImageRestart
import Verif.Spec.ImageUploader
/-
What a user of the example server relies on when its process may crash.
-/
namespace CSS.Spec.ImageUploader
open CSS.ImageUploader

/-- Here the process has just been started. -/
def StartsLife (before : List Episode) : Prop := before = [] ∨ ∃ earlier, before = earlier ++ [.restarted]

/-- The ids of the registered images, over all lives of the process, in this order. -/
def registeredIds (tr : List Episode) : List Str :=
  tr.filterMap fun e => match e with
    | .event (.created _ id) => some id
    | _ => none

end CSS.Spec.ImageUploader
