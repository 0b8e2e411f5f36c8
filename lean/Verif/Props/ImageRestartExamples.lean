import Verif.Props.ImageRestart
import Verif.Props.ImageSiteExamples
/-
A concrete case for C99: one image is registered and listed before a crash, another one after it.
-/
namespace CSS
open Spec ImageUploader Spec.ImageUploader

/-- The episodes: the first image is registered, reported and listed; the process crashes while another listing is under way; the first
image is reported again; the second image is registered, reported and listed. -/
def ImageUploader.twoLives : List Episode :=
  [.event (.created 0 uuidB), .event (.updated 1 uuidB), .event (.listed 2), .event (.listed 3), .restarted, .event (.updated 4 uuidB),
    .event (.created 5 uuidA), .event (.updated 6 uuidA), .event (.listed 7)]

theorem lives_step {crate : Crate} {cfg : Config} {tr : List Episode} {images images' : List Image}
    {tasks : List (Req × Task)} {i : Nat} {r : Req} {t t' : Task} {uuid : Str}
    (form : Res Failure (List (Str × Str))) (url : Res Failure Str) (h : Lives crate cfg tr ⟨images, tasks⟩) (ht : tasks[i]? = some (r, t))
    (hu : IsUuid uuid) (hg : crate.Gives uuid form url t) (hs : t.step cfg uuid images form url = (t', images')) :
    Lives crate cfg (tr ++ (t.events i).map .event) ⟨images', tasks.set i (r, t')⟩ := by
  have := Lives.step i r t uuid form url h ht hu hg
  rwa [show Task.step cfg uuid images form url t = (t', images') from hs] at this

/-- The history, whatever the crate is. -/
theorem two_lives {crate : Crate} {cfg : Config} {fieldsA fieldsB : List (Str × Str)} {urlA urlB : Str}
    (hformA : crate.form uuidA 4 (s% "image/png") (.ok fieldsA)) (hformB : crate.form uuidB 4 (s% "image/png") (.ok fieldsB))
    (hurlA : crate.url uuidA (.ok urlA)) (hurlB : crate.url uuidB (.ok urlB)) :
    ∃ s, Lives crate cfg twoLives s ∧
      s.tasks[0]? = some (.create 4 (s% "image/png"),
        .replied (.form fieldsB (s% "POST") (s% "https://storage.googleapis.com/" ++ cfg.bucketName))) ∧
      s.tasks[2]? = some (.list, .replied (.urls [urlB])) ∧ s.tasks[3]? = some (.list, .dropped) ∧
      s.tasks[4]? = some (.update uuidB, .replied .noContent) ∧ s.tasks[7]? = some (.list, .replied (.urls [urlA])) := by
  have hA : IsUuid uuidA := by decide
  have hB : IsUuid uuidB := by decide
  let create : Req := .create 4 (s% "image/png")
  let formA : Task := .replied (.form fieldsA (s% "POST") (s% "https://storage.googleapis.com/" ++ cfg.bucketName))
  let formB : Task := .replied (.form fieldsB (s% "POST") (s% "https://storage.googleapis.com/" ++ cfg.bucketName))
  let R := Lives crate cfg
  let first : List (Req × Task) := [(create, formB), (.update uuidB, .replied .noContent), (.list, .replied (.urls [urlB]))]
  -- before the crash
  have r1 : R [] ⟨[], [(create, .create 4 (s% "image/png"))]⟩ := .receive create .start
  have r2 : R [] ⟨[], [(create, .push uuidB fieldsB)]⟩ := lives_step (i := 0) (.ok fieldsB) (.ok []) r1 rfl hB hformB rfl
  have r3 : R (twoLives.take 1) ⟨[⟨uuidB, false⟩], [(create, formB)]⟩ := lives_step (i := 0) (.ok []) (.ok []) r2 rfl hB trivial rfl
  have r4 : R (twoLives.take 1) ⟨[⟨uuidB, false⟩], [(create, formB), (.update uuidB, .update uuidB)]⟩ := .receive (.update uuidB) r3
  have r5 : R (twoLives.take 2) ⟨[⟨uuidB, true⟩], [(create, formB), (.update uuidB, .replied .noContent)]⟩ :=
    lives_step (i := 1) (.ok []) (.ok []) r4 rfl hB trivial (by simp [Task.step, markUploaded])
  have r6 : R (twoLives.take 2) ⟨[⟨uuidB, true⟩], [(create, formB), (.update uuidB, .replied .noContent), (.list, .list)]⟩ :=
    .receive .list r5
  have r7 : R (twoLives.take 3) ⟨[⟨uuidB, true⟩], [(create, formB), (.update uuidB, .replied .noContent),
      (.list, .sign [⟨uuidB, true⟩] [])]⟩ := lives_step (i := 2) (.ok []) (.ok []) r6 rfl hB trivial rfl
  have r8 : R (twoLives.take 3) ⟨[⟨uuidB, true⟩], [(create, formB), (.update uuidB, .replied .noContent), (.list, .sign [] [urlB])]⟩ :=
    lives_step (i := 2) (.ok []) (.ok urlB) r7 rfl hB (fun _ => hurlB) (by simp [Task.step])
  have r9 : R (twoLives.take 3) ⟨[⟨uuidB, true⟩], first⟩ := lives_step (i := 2) (.ok []) (.ok []) r8 rfl hB trivial rfl
  have r10 : R (twoLives.take 3) ⟨[⟨uuidB, true⟩], first ++ [(.list, .list)]⟩ := .receive .list r9
  have r11 : R (twoLives.take 4) ⟨[⟨uuidB, true⟩], first ++ [(.list, .sign [⟨uuidB, true⟩] [])]⟩ :=
    lives_step (i := 3) (.ok []) (.ok []) r10 rfl hB trivial rfl
  -- the crash
  have r12 : R (twoLives.take 5) ⟨[], first ++ [(.list, .dropped)]⟩ := .restart r11
  -- after it
  let second : List (Req × Task) := first ++ [(.list, .dropped), (.update uuidB, .replied .noContent)]
  have r13 : R (twoLives.take 5) ⟨[], first ++ [(.list, .dropped), (.update uuidB, .update uuidB)]⟩ := .receive (.update uuidB) r12
  have r14 : R (twoLives.take 6) ⟨[], second⟩ :=
    lives_step (i := 4) (.ok []) (.ok []) r13 rfl hB trivial (by simp [Task.step, markUploaded])
  have r15 : R (twoLives.take 6) ⟨[], second ++ [(create, .create 4 (s% "image/png"))]⟩ := .receive create r14
  have r16 : R (twoLives.take 6) ⟨[], second ++ [(create, .push uuidA fieldsA)]⟩ :=
    lives_step (i := 5) (.ok fieldsA) (.ok []) r15 rfl hA hformA rfl
  have r17 : R (twoLives.take 7) ⟨[⟨uuidA, false⟩], second ++ [(create, formA)]⟩ :=
    lives_step (i := 5) (.ok []) (.ok []) r16 rfl hA trivial rfl
  have r18 : R (twoLives.take 7) ⟨[⟨uuidA, false⟩], second ++ [(create, formA), (.update uuidA, .update uuidA)]⟩ :=
    .receive (.update uuidA) r17
  have r19 : R (twoLives.take 8) ⟨[⟨uuidA, true⟩], second ++ [(create, formA), (.update uuidA, .replied .noContent)]⟩ :=
    lives_step (i := 6) (.ok []) (.ok []) r18 rfl hA trivial (by simp [Task.step, markUploaded])
  have r20 : R (twoLives.take 8) ⟨[⟨uuidA, true⟩], second ++ [(create, formA), (.update uuidA, .replied .noContent), (.list, .list)]⟩ :=
    .receive .list r19
  have r21 : R twoLives ⟨[⟨uuidA, true⟩], second ++ [(create, formA), (.update uuidA, .replied .noContent),
      (.list, .sign [⟨uuidA, true⟩] [])]⟩ := lives_step (i := 7) (.ok []) (.ok []) r20 rfl hA trivial rfl
  have r22 : R twoLives ⟨[⟨uuidA, true⟩], second ++ [(create, formA), (.update uuidA, .replied .noContent), (.list, .sign [] [urlA])]⟩ :=
    lives_step (i := 7) (.ok []) (.ok urlA) r21 rfl hA (fun _ => hurlA) (by simp [Task.step])
  have r23 : R twoLives ⟨[⟨uuidA, true⟩], second ++ [(create, formA), (.update uuidA, .replied .noContent),
      (.list, .replied (.urls [urlA]))]⟩ := lives_step (i := 7) (.ok []) (.ok []) r22 rfl hA trivial rfl
  exact ⟨_, r23, rfl, rfl, rfl, rfl, rfl⟩

theorem dog_form : ∃ fields, (Crate.alone Reference.env config).form uuidB 4 (s% "image/png") (.ok fields) := by
  have h : (match createForm Reference.env config uuidB 4 (s% "image/png") Conformance.world with
    | (.ok _, _) => true
    | _ => false) = true := by decide +kernel
  split at h
  · rename_i fields w' hf
    exact ⟨fields, Conformance.world, by rw [hf]⟩
  · cases h

theorem dog_url : ∃ url, (Crate.alone Reference.env config).url uuidB (.ok url) := by
  have h : (match signUrl Reference.env config uuidB Conformance.world with
    | (.ok _, _) => true
    | _ => false) = true := by decide +kernel
  split at h
  · rename_i url w' hf
    exact ⟨url, Conformance.world, by rw [hf]⟩
  · cases h

/-- C99: the hypotheses are met. Here the listing after the crash shows the second image only, although the first one was reported after
the crash, too; the form and the URL of the first image are as good as before. -/
theorem ImageUploader.two_lives_reference : ∃ s fields url url' n e, Lives (.alone Reference.env config) config twoLives s ∧
    (registeredIds twoLives).Nodup ∧ IsBucketName config.bucketName ∧
    s.tasks[2]? = some (.list, .replied (.urls [url])) ∧ s.tasks[4]? = some (.update uuidB, .replied .noContent) ∧
    s.tasks[7]? = some (.list, .replied (.urls [url'])) ∧
    (∃ path, urlPath (s% "https://storage.googleapis.com") url' = some path ∧ percentDecode path ≠ utf8 (s% "/my-bucket/" ++ uuidB)) ∧
    (∀ size time, AcceptsPost (s% "test@example.com") n e ⟨s% "my-bucket", fields, size, time⟩ ↔
      1640995200 ≤ time ∧ time < 1640995260 ∧ size = 4) ∧
    (∀ time, Accepts (s% "test@example.com") n e ⟨s% "GET", url, [(s% "host", s% "storage.googleapis.com")], time⟩ ↔
      1640995200 ≤ time ∧ time < 1640995260) := by
  obtain ⟨fieldsA, _, hfA⟩ := cat_form
  obtain ⟨fieldsB, hfB⟩ := dog_form
  obtain ⟨urlA, huA⟩ := cat_url
  obtain ⟨urlB, huB⟩ := dog_url
  obtain ⟨s, h, h0, h2, _, h4, h7⟩ := two_lives (cfg := config) hfA hfB huA huB
  obtain ⟨key, n, e, hpem, hpub⟩ := publicKey
  have clock : ∀ k, Reference.env.now k = 1640995200000000000 := fun k => by
    show 1640995200 * nsPerSec = 1640995200000000000; decide
  have hn : (registeredIds twoLives).Nodup := by decide
  have hb : IsBucketName config.bucketName := by decide
  refine ⟨s, fieldsB, urlB, urlA, n, e, h, hn, hb, h2, h4, h7, ?_, ?_, ?_⟩
  · obtain ⟨before, after, htr, hforget⟩ := C99_forgotten _ _ _ _ h hn hb 7 _ _ h7
    have hbefore : before = twoLives.take 8 := by
      have h7 : ∀ k, k < 8 → twoLives[k]? ≠ some (.event (.listed 7)) := by decide
      have hk : twoLives[before.length]? = some (.event (.listed 7)) := by rw [htr]; simp
      have hle : before.length < 9 := by
        have := (List.getElem?_eq_some_iff.1 hk).1
        exact this
      have hlen : before.length = 8 := by
        by_cases hlt : before.length < 8
        · exact absurd hk (h7 _ hlt)
        · omega
      rw [htr, ← hlen, List.take_left]
    exact hforget [] [.event (.updated 1 uuidB), .event (.listed 2), .event (.listed 3)]
      [.event (.updated 4 uuidB), .event (.created 5 uuidA), .event (.updated 6 uuidA)] 0 uuidB hbefore urlA (by simp)
  · intro size time
    obtain ⟨id, ticks, now, start, _, hnow, hstart, _, hacc⟩ := C99_form _ _ _ _ h 0 4 (s% "image/png") _ _ _ h0
    have := hacc _ _ key n e rfl Reference.correct hpem hpub size time
    rw [hnow, hstart, clock, clock] at this
    exact this
  · intro time
    obtain ⟨j, id, ticks, now, start, _, hnow, hstart, _, _, hacc⟩ := C99_url _ _ _ _ h 2 _ _ h2 urlB (by simp) hb
    have := hacc _ _ key n e rfl Reference.correct hpem hpub (by decide) time
    rw [hnow, hstart, clock, clock] at this
    exact this

end CSS
