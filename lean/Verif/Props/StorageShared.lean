import Verif.Props.KeyOwner
/-
C83: what GET, PUT and DELETE requests do with a URL that a call returned in a history of concurrent calls.
-/
namespace CSS
open Spec

variable {env : Env} {base : Nat → Str} {s : Sys}

/-- C83. A GET with a returned URL is answered exactly in the window of the URL, with the content of exactly the object that the
URL was made for. -/
theorem C83_get (h : Sys.Reach env base s) {o : UrlOptions} {url : Str} {hist : List Ev}
    (hret : ReturnedAfter s.trace (.url o) (.url (.ok url)) hist) (hp : PlainAccess o) (hget : o.httpMethod = s% "GET")
    {account : Str} {n e : Nat} (ho : KeyOwner env base s.trace o.signingKey account n e) (hpct : '%' ∉ account) :
    ∃ start, ValidFrom o.accessibleAt hist start ∧ ∀ (time : Int) (st : Store) (content : Bytes),
      Answers account n e st (theRequest o url time) content ↔
        (start / 1000000000 ≤ time ∧ time < start / 1000000000 + (o.expires - start) / 1000000000) ∧
        st (utf8 o.bucketName) (utf8 o.objectName) = some content := by
  obtain ⟨start, hv, hacc⟩ := C83_url_accepted_iff h hret hp.regular ho hpct
  obtain ⟨env', w, w', _, hb, _⟩ := url_replay_owned h hret ho
  have hn : NamesObject url (utf8 o.bucketName) (utf8 o.objectName) := ((C76_object_iff env' o w w' url hb).2 hp.names).2
  refine ⟨start, hv, fun time st content => ?_⟩
  by_cases ht : start / 1000000000 ≤ time ∧ time < start / 1000000000 + (o.expires - start) / 1000000000
  · rw [answers_iff ((hacc time).2 ht) hget (plain_simple hb hp time) hn]
    exact ⟨fun hx => ⟨ht, hx⟩, fun hx => hx.2⟩
  · exact ⟨fun hx => absurd ((hacc time).1 hx.1) ht, fun hx => absurd hx.1 ht⟩

/-- The store after a PUT or DELETE with a returned URL. -/
theorem changed_shared (h : Sys.Reach env base s) {o : UrlOptions} {url : Str} {hist : List Ev}
    (hret : ReturnedAfter s.trace (.url o) (.url (.ok url)) hist) (hp : PlainAccess o)
    {account : Str} {n e : Nat} (ho : KeyOwner env base s.trace o.signingKey account n e) (hpct : '%' ∉ account) :
    ∃ start, ValidFrom o.accessibleAt hist start ∧ ∀ (time : Int) (st st' : Store) (body : Bytes) (new : Option Bytes),
      (o.httpMethod = s% "PUT" ∧ new = some body ∨ o.httpMethod = s% "DELETE" ∧ new = none) →
      Handles account n e (.request (theRequest o url time) body) st st' → ∀ bucket object, st' bucket object =
        if (start / 1000000000 ≤ time ∧ time < start / 1000000000 + (o.expires - start) / 1000000000) ∧
          bucket = utf8 o.bucketName ∧ object = utf8 o.objectName
        then new else st bucket object := by
  obtain ⟨start, hv, hacc⟩ := C83_url_accepted_iff h hret hp.regular ho hpct
  obtain ⟨env', w, w', _, hb, _⟩ := url_replay_owned h hret ho
  have hn : NamesObject url (utf8 o.bucketName) (utf8 o.objectName) := ((C76_object_iff env' o w w' url hb).2 hp.names).2
  refine ⟨start, hv, fun time st st' body new hnew hs bucket object => ?_⟩
  by_cases ht : start / 1000000000 ≤ time ∧ time < start / 1000000000 + (o.expires - start) / 1000000000
  · by_cases hbk : bucket = utf8 o.bucketName ∧ object = utf8 o.objectName
    · rw [if_pos ⟨ht, hbk⟩, hbk.1, hbk.2]
      have hput := hs.put ((hacc time).2 ht) _ _ _ _ rfl hn (plain_simple hb hp time)
      rcases hnew with ⟨hm, rfl⟩ | ⟨hm, rfl⟩
      · exact hput.1 hm
      · exact hput.2 hm
    · rw [if_neg (fun hx => hbk hx.2)]
      apply Classical.byContradiction
      intro hne
      exact hbk (only_named hn (hs.others bucket object hne).2)
  · rw [if_neg (fun hx => ht hx.1), hs.rejected (fun ha => ht ((hacc time).1 ha))]

/-- C83. A PUT with a returned URL stores its body in exactly the object that the URL was made for, in the window of the URL, and
changes nothing out of it. -/
theorem C83_put (h : Sys.Reach env base s) {o : UrlOptions} {url : Str} {hist : List Ev}
    (hret : ReturnedAfter s.trace (.url o) (.url (.ok url)) hist) (hp : PlainAccess o) (hput : o.httpMethod = s% "PUT")
    {account : Str} {n e : Nat} (ho : KeyOwner env base s.trace o.signingKey account n e) (hpct : '%' ∉ account) :
    ∃ start, ValidFrom o.accessibleAt hist start ∧ ∀ (time : Int) (st st' : Store) (body : Bytes),
      Handles account n e (.request (theRequest o url time) body) st st' → ∀ bucket object, st' bucket object =
        if (start / 1000000000 ≤ time ∧ time < start / 1000000000 + (o.expires - start) / 1000000000) ∧
          bucket = utf8 o.bucketName ∧ object = utf8 o.objectName
        then some body else st bucket object := by
  obtain ⟨start, hv, hall⟩ := changed_shared h hret hp ho hpct
  exact ⟨start, hv, fun time st st' body => hall time st st' body _ (.inl ⟨hput, rfl⟩)⟩

/-- C83. A DELETE with a returned URL removes exactly the object that the URL was made for, in the window of the URL, and changes
nothing out of it. -/
theorem C83_delete (h : Sys.Reach env base s) {o : UrlOptions} {url : Str} {hist : List Ev}
    (hret : ReturnedAfter s.trace (.url o) (.url (.ok url)) hist) (hp : PlainAccess o) (hdel : o.httpMethod = s% "DELETE")
    {account : Str} {n e : Nat} (ho : KeyOwner env base s.trace o.signingKey account n e) (hpct : '%' ∉ account) :
    ∃ start, ValidFrom o.accessibleAt hist start ∧ ∀ (time : Int) (st st' : Store) (body : Bytes),
      Handles account n e (.request (theRequest o url time) body) st st' → ∀ bucket object, st' bucket object =
        if (start / 1000000000 ≤ time ∧ time < start / 1000000000 + (o.expires - start) / 1000000000) ∧
          bucket = utf8 o.bucketName ∧ object = utf8 o.objectName
        then none else st bucket object := by
  obtain ⟨start, hv, hall⟩ := changed_shared h hret hp ho hpct
  exact ⟨start, hv, fun time st st' body => hall time st st' body _ (.inr ⟨hdel, rfl⟩)⟩

end CSS
