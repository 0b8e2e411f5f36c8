import Verif.Model.ImageUploader
/-
The example server with crashes: the process may end at any point and be started again.
-/
namespace CSS.ImageUploader

/-- What happens to the example server: an event under its mutex (`Event`), or the process ends and is started again. -/
inductive Episode where
  | event (e : Event)
  | restarted
  deriving DecidableEq, Repr

/-- The process ends and is started again. The images are only in memory (`images: Default::default()`,
examples/image-uploader/src/main.rs:129-133, 174-177), and handlers that have not answered are gone. What was answered stays
answered. Simplified: the configuration is read again from the same environment (main.rs:151-166). -/
def State.restart (s : State) : State :=
  ⟨[], s.tasks.map fun p => (p.1, match p.2 with
    | .replied a => .replied a
    | _ => .dropped)⟩

/-- The histories of the server with crashes: those of `Run`, and at any point a restart.
examples/image-uploader/src/main.rs:20-130, 149-182 -/
inductive Lives (crate : Crate) (cfg : Config) : List Episode → State → Prop where
  | start : Lives crate cfg [] ⟨[], []⟩
  | receive {tr s} (r : Req) : Lives crate cfg tr s → Lives crate cfg tr { s with tasks := s.tasks ++ [(r, r.task)] }
  | step {tr s} (i : Nat) (r : Req) (t : Task) (uuid : Str) (form : Res Failure (List (Str × Str))) (url : Res Failure Str) :
      Lives crate cfg tr s → s.tasks[i]? = some (r, t) → IsUuid uuid → crate.Gives uuid form url t →
      Lives crate cfg (tr ++ (t.events i).map .event)
        ⟨(t.step cfg uuid s.images form url).2, s.tasks.set i (r, (t.step cfg uuid s.images form url).1)⟩
  | drop {tr s} (i : Nat) (r : Req) (t : Task) :
      Lives crate cfg tr s → s.tasks[i]? = some (r, t) → (∀ a, t ≠ .replied a) →
      Lives crate cfg tr { s with tasks := s.tasks.set i (r, .dropped) }
  | restart {tr s} : Lives crate cfg tr s → Lives crate cfg (tr ++ [.restarted]) s.restart

end CSS.ImageUploader
