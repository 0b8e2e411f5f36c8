import Verif.Model.SigningKey
import Verif.Spec.Documents
/-
The vocabulary for what a bound-token key does on the network: requests by their position in the log.
-/
namespace CSS.Spec

/-- Request number `k` of the log was `r` and was answered with a 2xx status and the text `text`. -/
def Answered (env : Env) (log : List Request) (k : Nat) (r : Request) (text : Str) : Prop :=
  log[k]? = some r ∧ ∃ status, 200 ≤ status ∧ status ≤ 299 ∧ env.net k r = .response status (some text)

/-- The metadata server's two URLs below `base`. -/
def emailUrl (base : Str) : Str := base ++ s% "/computeMetadata/v1/instance/service-accounts/default/email"
def tokenUrl (base : Str) : Str := base ++ s% "/computeMetadata/v1/instance/service-accounts/default/token"

/-- A GET with the header `Metadata-Flavor: Google` and nothing else. -/
def metadataGet (url : Str) : Request :=
  { method := s% "GET", url := url, headers := [(s% "Metadata-Flavor", s% "Google")], body := none }

/-- The e-mail and token came from one refresh: two consecutive requests `k`, `k+1`, the first answered
with the e-mail, the second with a Bearer token document that lives for `life` seconds. -/
def FromRefresh (env : Env) (base : Str) (log : List Request) (k : Nat) (email token : Str) (life : Nat) : Prop :=
  Answered env log k (metadataGet (emailUrl base)) email ∧
  ∃ body, Answered env log (k + 1) (metadataGet (tokenUrl base)) body ∧
    TokenText body token life (s% "Bearer")

/-- `email` is the identity behind `key` when a call starts in state `w` and ends with the log `log`: the
account's own e-mail, the HMAC access id, or, for a bound token, the cached e-mail or the e-mail the
metadata server answered during the call. -/
def Authorizes (env : Env) (w : World) (log : List Request) (key : SigningKey) (email : Str) : Prop :=
  match key with
  | .serviceAccount e _ => email = e
  | .hmac a _ => email = a
  | .boundToken bt =>
    (∃ c, w.caches bt.id = some c ∧ email = c.email) ∨
    ∃ k, w.log.length ≤ k ∧ Answered env log k (metadataGet (emailUrl bt.baseUrl)) email

/-- The clock never runs before 1970, and no token document answered by a server promises a lifetime beyond
what `SystemTime` can represent. -/
structure Sane (env : Env) : Prop where
  clock : ∀ k, 0 ≤ env.now k
  life : ∀ k r status text token life type j, env.net k r = .response status (some text) → TokenText text token life type →
    env.now j + (life : Int) * 1000000000 < 9223372036854775808 * 1000000000

/-- No token cache holds an expiry before 1970 (true of fresh caches; kept by every call, see C38). -/
def SaneCaches (w : World) : Prop := ∀ i c, w.caches i = some c → 0 ≤ c.expires

/-- Asked from state `w`, the metadata server gives the e-mail and a Bearer token that lives for `life` seconds: both
requests can be built and are answered with a 2xx status. -/
def ServerGives (env : Env) (bt : BoundToken) (w : World) (email token : Str) (life : Nat) : Prop :=
  env.canBuild (metadataGet (emailUrl bt.baseUrl)) = true ∧ env.canBuild (metadataGet (tokenUrl bt.baseUrl)) = true ∧
  ∃ st1 st2 body, 200 ≤ st1 ∧ st1 ≤ 299 ∧ 200 ≤ st2 ∧ st2 ≤ 299 ∧
    env.net w.log.length (metadataGet (emailUrl bt.baseUrl)) = .response st1 (some email) ∧
    env.net (w.log.length + 1) (metadataGet (tokenUrl bt.baseUrl)) = .response st2 (some body) ∧
    TokenText body token life (s% "Bearer")

/-- A key in state `w` has to ask the metadata server: it has no token, or one with at most 30 s left. `k` is the number
of clock readings by then. -/
def MustAsk (env : Env) (bt : BoundToken) (w : World) (k : Nat) : Prop :=
  (w.caches bt.id = none ∧ k = w.ticks) ∨
  ∃ c, w.caches bt.id = some c ∧ 0 ≤ c.expires ∧ 0 ≤ env.now w.ticks ∧
    c.expires ≤ env.now w.ticks + 30 * 1000000000 ∧ k = w.ticks + 1

/-- A key in state `w` gets an e-mail and a token, and leaves the state `w'`: from its cache, if the token there has
more than 30 s left, or else from the metadata server; then the cache is replaced. -/
inductive GetsToken (env : Env) (bt : BoundToken) (w : World) : Str → Str → World → Prop
  | cached (c : Cached) : w.caches bt.id = some c → 0 ≤ c.expires → 0 ≤ env.now w.ticks →
      env.now w.ticks + 30 * 1000000000 < c.expires → GetsToken env bt w c.email c.token { w with ticks := w.ticks + 1 }
  | asked (k life : Nat) (email token : Str) : MustAsk env bt w k → ServerGives env bt w email token life →
      env.now k + (life : Int) * 1000000000 < 9223372036854775808 * 1000000000 →
      GetsToken env bt w email token { w with
        ticks := k + 1
        log := w.log ++ [metadataGet (emailUrl bt.baseUrl), metadataGet (tokenUrl bt.baseUrl)]
        caches := fun i => if i = bt.id then some ⟨email, token, env.now k + (life : Int) * 1000000000⟩ else w.caches i }

/-- Getting a token panics: the cached expiry or the clock is before 1970, or the server gives a token that lives beyond
the last instant that `SystemTime` can represent. -/
def TokenPanics (env : Env) (bt : BoundToken) (w : World) (s : PanicSite) : Prop :=
  (∃ c, w.caches bt.id = some c ∧ c.expires < 0 ∧ s = .expiresBeforeEpoch) ∨
  (∃ c, w.caches bt.id = some c ∧ 0 ≤ c.expires ∧ env.now w.ticks < 0 ∧ s = .nowBeforeEpoch) ∨
  ∃ k email token life, MustAsk env bt w k ∧ ServerGives env bt w email token life ∧
    9223372036854775808 * 1000000000 ≤ env.now k + (life : Int) * 1000000000 ∧ s = .expiresOverflow

/-- The state after reading the clock for the start time, if none was given. -/
def afterStart (given : Option Time) (w : World) : World :=
  match given with
  | some _ => w
  | none => { w with ticks := w.ticks + 1 }

/-- The last request of the log asks IAM for a signature by the account `email`. -/
def AskedToSign (log : List Request) (email : Str) : Prop :=
  ∃ r, log.getLast? = some r ∧ r.method = s% "POST" ∧
    r.url = s% "https://iamcredentials.googleapis.com/v1/projects/-/serviceAccounts/" ++ email ++ s% ":signBlob"

/-- The account does not change: `account` is the e-mail in the cache of the key (if any) and in every further
answer of the metadata server. -/
def StableAccount (env : Env) (bt : BoundToken) (w : World) (account : Str) : Prop :=
  (∀ c, w.caches bt.id = some c → c.email = account) ∧
  ∀ k status text, w.log.length ≤ k → 200 ≤ status → status ≤ 299 →
    env.net k (metadataGet (emailUrl bt.baseUrl)) = .response status (some text) → text = account

/-- No token expires during a call that takes at most `d` ns: the clock runs from its first reading to at most `d`
later, every token document that arrives lives for more than `d` and 30 s, and a cached token has either at most 30 s
left at the beginning of the call, or more than 30 s at its end. -/
structure QuickCall (env : Env) (bt : BoundToken) (w : World) (d : Int) : Prop where
  clock : ∀ j, w.ticks ≤ j → env.now w.ticks ≤ env.now j ∧ env.now j ≤ env.now w.ticks + d
  life : ∀ k status text token life type, w.log.length ≤ k →
    env.net k (metadataGet (tokenUrl bt.baseUrl)) = .response status (some text) → TokenText text token life type →
    d + 30 * 1000000000 < (life : Int) * 1000000000
  cached : ∀ c, w.caches bt.id = some c → c.expires ≤ env.now w.ticks + 30 * 1000000000 ∨
    env.now w.ticks + d + 30 * 1000000000 < c.expires

/-- The account changed during a call that started in `w` and ended with the log `log`: the call named `email`, from the
token that was cached at its beginning or that its first two requests got. When it came to sign, that token had at most
30 s left, so it asked the metadata server again, in the two requests before its last one, and was told `signer`. -/
def AccountReplaced (env : Env) (bt : BoundToken) (w : World) (log : List Request) (email signer : Str) : Prop :=
  ∃ token expires n i newToken newLife, w.ticks ≤ i ∧ expires ≤ env.now i + 30 * 1000000000 ∧ log.length = n + 3 ∧
    FromRefresh env bt.baseUrl log n signer newToken newLife ∧
    ((n = w.log.length ∧ w.caches bt.id = some ⟨email, token, expires⟩) ∨
      n = w.log.length + 2 ∧ ∃ (life j : Nat), w.ticks ≤ j ∧ j ≤ i ∧ expires = env.now j + (life : Int) * 1000000000 ∧
        FromRefresh env bt.baseUrl log w.log.length email token life)

end CSS.Spec
