import Verif.Cases.Alone
import Verif.Props.Token
/-
The condition of C92 is needed: a call that finds a token which another call has fetched meanwhile.
-/
namespace CSS
open Spec Conformance

theorem split_takeWhile {α : Type} (p : α → Bool) (l : List α) : l = l.takeWhile p ++ l.dropWhile p :=
  List.takeWhile_append_dropWhile.symm

/-- C92. A call may be disturbed if another call replaces the cached token between its start and its end: there is a history
in which a call, which started with an empty cache, sends requests that it sends in no circumstances when it is made alone
with that cache, whatever its clock and the network show. -/
theorem C92_disturbed : ∃ s pre mid post r c, Sys.Reach btEnv baseOf s ∧
    s.trace = pre ++ .started 1 (.form btCalls) :: mid ++ .returned 1 r :: post ∧ .did 0 (.stored btKey.id c) ∈ mid ∧
    ∀ env', (alone env' (.form btCalls) (worldAfter pre)).2.log ≠ sentIn (did mid 1) := by
  have h : Leads btEnv baseOf finished (fun s =>
      match s.trace.dropWhile (fun | .started 1 _ => false | _ => true) with
      | .started 1 _ :: rest =>
        (cacheOf btKey.id (s.trace.takeWhile (fun | .started 1 _ => false | _ => true))).isNone &&
        ((sentIn (did (rest.takeWhile (fun | .returned 1 _ => false | _ => true)) 1)).all (fun r => r.method == s% "POST") &&
        (!(sentIn (did (rest.takeWhile (fun | .returned 1 _ => false | _ => true)) 1)).isEmpty &&
        ((rest.takeWhile (fun | .returned 1 _ => false | _ => true)).any (fun | .did 0 (.stored 0 _) => true | _ => false) &&
        (match rest.dropWhile (fun | .returned 1 _ => false | _ => true) with
          | .returned 1 _ :: _ => true
          | _ => false))))
      | _ => false) = true := by decide +kernel
  unfold Leads at h
  cases hs : Sys.init.exec btEnv baseOf finished with
  | none => rw [hs] at h; cases h
  | some s =>
    rw [hs] at h
    have hr := exec_reach .init hs
    obtain ⟨_, hst⟩ := exec_started hs
    have s1 := hst 1 (.form btCalls) (by simp [finished, signing, shared, refreshing])
    dsimp only at h
    split at h
    · rename_i call rest hd
      simp only [Bool.and_eq_true] at h
      obtain ⟨h1, h2, h3, h4, h5⟩ := h
      split at h5
      · rename_i r post hd2
        have e1 := split_takeWhile (fun | .started 1 _ => false | _ => true) s.trace
        have e2 := split_takeWhile (fun | .returned 1 _ => false | _ => true) rest
        rw [hd] at e1
        rw [hd2] at e2
        have hcall := started_unique hr (i := 1) (c1 := call) (by rw [e1]; simp) s1
        subst hcall
        obtain ⟨e, he, hf⟩ := List.any_eq_true.1 h4
        split at hf
        · rename_i c
          refine ⟨s, s.trace.takeWhile (fun | .started 1 _ => false | _ => true),
            rest.takeWhile (fun | .returned 1 _ => false | _ => true), post, r, c, hr, ?_, he, fun env' hlog => ?_⟩
          · rw [List.append_assoc, List.cons_append, ← e2]
            exact e1
          · generalize sentIn (did (rest.takeWhile (fun | .returned 1 _ => false | _ => true)) 1) = sent at h2 h3 hlog
            have hnone : cacheOf btKey.id (s.trace.takeWhile (fun | .started 1 _ => false | _ => true)) = none := by
              simpa using h1
            generalize s.trace.takeWhile (fun | .started 1 _ => false | _ => true) = pre at hlog hnone
            obtain ⟨o, ho, hk⟩ : ∃ o, (btCalls.filterMap callOptions).getLast? = some o ∧ o.signingKey = .boundToken btKey :=
              ⟨_, rfl, rfl⟩
            obtain ⟨more, m1, m2⟩ := (C40_build_requests env' btCalls o btUrlOptions btKey (worldAfter pre)).1 ho hk
            simp only [alone] at hlog
            rw [hlog] at m1 m2
            have hmore : more = sent := by rw [m1]; rfl
            rw [hmore] at m2
            have post : ∀ r ∈ sent, r.method = s% "POST" := fun r hr => by simpa using List.all_eq_true.1 h2 r hr
            have noGet : ∀ u, metadataGet u ∉ sent := fun u hu => by
              have := post _ hu
              exact absurd this (by simp [metadataGet])
            cases hsent : sent with
            | nil => rw [hsent] at h3; simp at h3
            | cons q qs =>
              have hq : q ∈ sent := by rw [hsent]; simp
              rcases m2 q hq with hq' | hq' | ⟨email, token, body, ⟨c', hc', _⟩ | ⟨k, life, ⟨hget, _⟩, _⟩, _⟩
              · exact noGet _ (hq' ▸ hq)
              · exact noGet _ (hq' ▸ hq)
              · have : (worldAfter pre).caches btKey.id = none := hnone
                rw [this] at hc'
                cases hc'
              · exact noGet _ (List.mem_of_getElem? hget)
        · cases hf
      · cases h5
    · cases h

end CSS
