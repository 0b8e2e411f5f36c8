import Verif.Cases.ImageWire
import Verif.Cases.RestartShared
/-
A concrete case for C103 with a bound token.
-/
namespace CSS
open Spec ImageUploader Spec.ImageUploader Reference Conformance

/-- C103_shared_site: the hypotheses are met. With the shipped CORS configuration and `USE_SIGN_BLOB=true` a page chooses a file; the
server crashes after the registration; the page uploads, reports and lists, everything over the wire. -/
example : ∃ (s : Sys) (n e : Nat) (cors : List CorsEntry) (site : Site), readCors corsFile = some cors ∧
    (∀ k, Sys.Reach btEnv baseOf (callsOf s k)) ∧
    (∀ k, KeyOwner btEnv baseOf (callsOf s k).trace btConfig.signingKey (s% "a@b.c") n e) ∧
    Site.WireLives plainMime cors (.inLives (callsOf s) btConfig) btConfig (s% "a@b.c") n e
      [.event (.created 0 uuidA), .restarted, .event (.updated 1 uuidA), .event (.listed 2)] site ∧
    site.uploads = [(cat, .shown [])] := by
  obtain ⟨s, n, e, fs, url, hr, ho, hone, h0, hu, h1, hf, hfind, honly, hcs, hsmall⟩ := shared_calls_small
  obtain ⟨site, r1, r2, r3⟩ := cat_crash (crate := .inLives (callsOf s) btConfig) (cfg := btConfig) (account := s% "a@b.c") (n := n) (e := e)
    (fields := fs) hfind ⟨0, atNow, trivial, .inr ⟨1, .ok fs, h1, hf, rfl⟩⟩ (by
      intro site hrun url' hup
      obtain ⟨_, bucket, id, k, now, start, hb, hk, hff, hacc⟩ := C100_shared_upload_accepted (fun _ => btEnv) (fun _ => baseOf) (callsOf s)
        (callsOf_reach hr) btConfig (s% "a@b.c") n e _ site hrun (by decide) (callsOf_owner ho) 0 cat fs _ _ hup
      unfold callsOf at hff
      split at hff
      · obtain ⟨hstart, hnow⟩ := shared_time hone hcs hff
        refine ⟨bucket, atNow / 1000000000, hb, (hacc _).2 ?_⟩
        rw [hstart, hnow]
        decide
      · exact absurd hff (no_calls (url := [])).2)
  refine ⟨s, n, e, _, site, C102_file, callsOf_reach hr, callsOf_owner ho, ?_, r2⟩
  refine (C103_shared_site plainMime _ ⟨s% "http://localhost:3000", _, List.mem_singleton.2 rfl, .inl (by decide), by decide⟩
    (fun _ => btEnv) (fun _ => baseOf) (callsOf s) (callsOf_reach hr) btConfig (s% "a@b.c") n e (callsOf_owner ho) (by decide) (by decide) _ site
    (by decide) (by
      intro r f m u hm
      rw [r3] at hm
      simp at hm
      rw [hm.2.1]; exact hsmall)).2 ⟨r1, by
        rw [r2]; intro f hf; rcases List.mem_singleton.1 hf with rfl; exact ⟨⟨by decide, by decide⟩, by decide⟩, by
        rw [r3]
        intro r hr
        simp only [List.map_cons, List.map_nil, List.mem_cons, List.not_mem_nil, or_false] at hr
        rcases hr with rfl | rfl | rfl
        · exact ⟨_, C94_sent _ cat .chosen _ _ rfl rfl (by intro id h; cases h) (by decide) (by decide)⟩
        · exact ⟨_, C94_sent _ cat (.uploaded uuidA) _ _ rfl rfl (by intro id h; cases h; decide) (by decide) (by decide)⟩
        · exact ⟨_, C94_sent _ cat .reported _ _ rfl rfl (by intro id h; cases h) (by decide) (by decide)⟩⟩

end CSS
