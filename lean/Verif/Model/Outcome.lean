import Verif.Model.Text
/-
Outcomes and effects. A Rust function `fn f(..) -> Result<T, E>` becomes a function into `Res E T`:
`panic` is the explicit value for `todo!()`, `expect(..)` on an error and arithmetic overflow panics.
-/
namespace CSS

/-- The panic sites of the crate that the model can reach. Not listed because their argument provably
cannot fail: src/private/signed_url.rs:93 (`Url::parse` of an accepted `Uri`; `Url.parse` is total in
the model), src/private/utils/unix_timestamp.rs:45,54,60 (timestamps are range-checked at construction)
and src/html_form_data.rs:435 (`Location::try_from` never fails). -/
inductive PanicSite where
  /-- src/private/signing_key_inner.rs:61 `todo!()` -/
  | hmacTodo
  /-- src/private/signing_key_inner.rs:64 `todo!()` -/
  | serviceAccountSignBlobTodo
  /-- src/private/bound_token.rs:84 -/
  | expiresBeforeEpoch
  /-- src/private/bound_token.rs:87 -/
  | nowBeforeEpoch
  /-- src/private/bound_token.rs:166 (`SystemTime + Duration` overflow) -/
  | expiresOverflow
  /-- src/private/signed_url.rs:117 -/
  | urlToBeValid
  /-- `Field::new(..).expect(..)` in src/html_form_data.rs:448..545 -/
  | fieldName
  /-- `headers_mut().extend(..)`, src/signed_url.rs:100 (the `http` crate's "size overflows MAX_SIZE") -/
  | headerMapFull
  deriving DecidableEq, Repr

/-- Rust `Result<α, ε>` plus panics. -/
inductive Res (ε α : Type) where
  | ok (a : α)
  | err (e : ε)
  | panic (site : PanicSite)
  deriving Repr, DecidableEq

namespace Res
/-- Rust `?` chaining. -/
def bind {ε α β} (x : Res ε α) (f : α → Res ε β) : Res ε β :=
  match x with
  | ok a => f a
  | err e => err e
  | panic p => panic p
instance {ε} : Monad (Res ε) where
  pure := Res.ok
  bind := Res.bind
/-- Rust `Result::map_err`. -/
def mapErr {ε ε' α} (f : ε → ε') : Res ε α → Res ε' α
  | ok a => ok a
  | err e => err (f e)
  | panic p => panic p
/-- Rust `Option::ok_or`. -/
def ofOption {ε α} (e : ε) : Option α → Res ε α
  | some a => ok a
  | none => err e
/-- Rust `Result::expect` / `Option::expect`. -/
def expect {ε α} (p : PanicSite) : Option α → Res ε α
  | some a => ok a
  | none => panic p
end Res

/-- Rust `SystemTime`: nanoseconds since the Unix epoch (negative before it). -/
notation "Time" => Int
/-- nanoseconds per second -/
def nsPerSec : Int := 1000000000
/-- First instant not representable by Linux `SystemTime` (`i64` seconds overflow). -/
def timeLimit : Int := 9223372036854775808 * nsPerSec

/-- An HTTP request handed to `reqwest::Client::execute`. -/
structure Request where
  method : Str
  url : Str
  headers : List (Str × Str)
  body : Option Str
  deriving DecidableEq, Repr

/-- What `client.execute(request).await` yields: a transport error, or a status and the result of
`response.text().await` (`none` = body read error). -/
inductive NetResult where
  | execErr
  | response (status : Nat) (body : Option Str)
  deriving DecidableEq, Repr

/-- The outside world as arbitrary oracles; every theorem quantifies over it.
* `now k`: the value of the `k`-th `SystemTime::now()`;
* `canBuild r`: whether reqwest's `RequestBuilder::build` accepts the request;
* `net k r`: the outcome of the `k`-th executed request;
* `pemParse`, `rsaFromPkcs8`, `rsaSign`: `pem::parse(..).contents()`, `RsaKeyPair::from_pkcs8`
  (accepted or not), and RSA PKCS#1 v1.5 SHA-256 signing with that key;
* `metadataHost`: the environment variable `GCE_METADATA_HOST`;
* `numOk`: whether serde_json accepts a number literal that is not a plain `u64`/`i64` (f64 range);
* `encodeCaret`, `keepDriveLetter`: two version-dependent quirks of the `url` crate (see Model/Url);
* `headersFit`: whether an `http::HeaderMap` has room for many names (see Model/SignedUrl). -/
structure Env where
  now : Nat → Time
  canBuild : Request → Bool
  net : Nat → Request → NetResult
  pemParse : Str → Option Bytes
  rsaFromPkcs8 : Bytes → Bool
  rsaSign : Bytes → Bytes → Option Bytes
  metadataHost : Option Str
  numOk : Str → Bool
  encodeCaret : Bool
  keepDriveLetter : Bool
  headersFit : List Str → Bool

/-- `Option<(String, String, SystemTime)>` of src/private/bound_token.rs:60. -/
structure Cached where
  email : Str
  token : Str
  expires : Time
  deriving DecidableEq, Repr

/-- Mutable state: the token cache of every `Arc<Mutex<..>>` (indexed by its identity), the number of
`Arc`s allocated, the requests executed so far (oldest first), and how often the clock was read. -/
structure World where
  caches : Nat → Option Cached
  nextId : Nat
  log : List Request
  ticks : Nat

/-- Effectful Rust functions. -/
def M (ε α : Type) := World → Res ε α × World

namespace M
def pure {ε α} (a : α) : M ε α := fun w => (.ok a, w)
def bind {ε α β} (x : M ε α) (f : α → M ε β) : M ε β := fun w =>
  match x w with
  | (.ok a, w') => f a w'
  | (.err e, w') => (.err e, w')
  | (.panic p, w') => (.panic p, w')
instance {ε} : Monad (M ε) where
  pure := M.pure
  bind := M.bind
/-- A pure fallible computation. -/
def lift {ε α} (r : Res ε α) : M ε α := fun w => (r, w)
def err {ε α} (e : ε) : M ε α := fun w => (.err e, w)
def panic {ε α} (p : PanicSite) : M ε α := fun w => (.panic p, w)
/-- Rust `.map_err(f)?`. -/
def mapErr {ε ε' α} (f : ε → ε') (x : M ε α) : M ε' α := fun w => ((x w).1.mapErr f, (x w).2)
/-- `SystemTime::now()`. -/
def now {ε} (env : Env) : M ε Time := fun w => (.ok (env.now w.ticks), { w with ticks := w.ticks + 1 })
/-- `accessible_at.unwrap_or_else(SystemTime::now)`: src/signed_url.rs:69, src/html_form_data.rs:408 -/
def timeOrNow {ε} (env : Env) : Option Time → M ε Time
  | some t => M.pure t
  | none => M.now env
/-- `client.execute(request).await`: the request is logged, the oracle answers. -/
def execute {ε} (env : Env) (r : Request) : M ε NetResult := fun w =>
  (.ok (env.net w.log.length r), { w with log := w.log ++ [r] })
/-- Read the token cache `id` (the guard of `self.cache.lock().await`). -/
def getCache {ε} (id : Nat) : M ε (Option Cached) := fun w => (.ok (w.caches id), w)
/-- Overwrite the token cache `id`. -/
def setCache {ε} (id : Nat) (c : Cached) : M ε Unit := fun w =>
  (.ok (), { w with caches := fun i => if i = id then some c else w.caches i })
end M

section simps
variable {ε ε' α β : Type}
@[simp] theorem Res.pure_eq (a : α) : (Pure.pure a : Res ε α) = .ok a := rfl
@[simp] theorem Res.bind_ok (a : α) (f : α → Res ε β) : (Res.ok a >>= f) = f a := rfl
@[simp] theorem Res.bind_err (e : ε) (f : α → Res ε β) : (Res.err e >>= f) = .err e := rfl
@[simp] theorem Res.bind_panic (p : PanicSite) (f : α → Res ε β) : (Res.panic p >>= f) = .panic p := rfl
@[simp] theorem Res.mapErr_ok (f : ε → ε') (a : α) : (Res.ok a).mapErr f = .ok a := rfl
@[simp] theorem Res.mapErr_err (f : ε → ε') (e : ε) : (Res.err e : Res ε α).mapErr f = .err (f e) := rfl
@[simp] theorem Res.mapErr_panic (f : ε → ε') (p : PanicSite) :
    (Res.panic p : Res ε α).mapErr f = .panic p := rfl
@[simp] theorem Res.ofOption_some (e : ε) (a : α) : Res.ofOption e (some a) = .ok a := rfl
@[simp] theorem Res.ofOption_none (e : ε) : (Res.ofOption e none : Res ε α) = .err e := rfl
@[simp] theorem Res.expect_some (p : PanicSite) (a : α) : (Res.expect p (some a) : Res ε α) = .ok a := rfl
@[simp] theorem Res.expect_none (p : PanicSite) : (Res.expect p none : Res ε α) = .panic p := rfl
@[simp] theorem M.pure_run (a : α) (w : World) : (Pure.pure a : M ε α) w = (.ok a, w) := rfl
theorem M.bind_run (x : M ε α) (f : α → M ε β) (w : World) : (x >>= f) w =
  match x w with
  | (.ok a, w') => f a w'
  | (.err e, w') => (.err e, w')
  | (.panic p, w') => (.panic p, w') := rfl
theorem M.mapErr_run (f : ε → ε') (x : M ε α) (w : World) :
    (M.mapErr f x) w = ((x w).1.mapErr f, (x w).2) := rfl
@[simp] theorem M.lift_run (r : Res ε α) (w : World) : (M.lift r : M ε α) w = (r, w) := rfl
@[simp] theorem M.err_run (e : ε) (w : World) : (M.err e : M ε α) w = (.err e, w) := rfl
@[simp] theorem M.panic_run (p : PanicSite) (w : World) : (M.panic p : M ε α) w = (.panic p, w) := rfl
end simps
end CSS
