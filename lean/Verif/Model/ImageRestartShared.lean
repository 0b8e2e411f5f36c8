import Verif.Model.ImageUploaderShared
/-
The example server with crashes, when the calls of the crate run concurrently in each life of its process.
-/
namespace CSS.ImageUploader

/-- What the server gets from the crate when each life `k` of its process has its own concurrent calls, with their own bound token:
`calls k` are those of this life (`SigningKey::bound_token()` at the start, examples/image-uploader/src/main.rs:152-155). (More than
the program can do: a result of another life may be used.) -/
def Crate.inLives (calls : Nat → Sys) (cfg : Config) : Crate where
  form id n t r := ∃ k, (Crate.shared (calls k).trace cfg).form id n t r
  url id r := ∃ k, (Crate.shared (calls k).trace cfg).url id r

/-- What the server gets from the crate when each life of its process has its own concurrent calls (as `Crate.inLives`), if it does not read
the clock in the last minute of `SystemTime` (`SystemTime::now() + 60 s` does not panic, examples/image-uploader/src/main.rs:41, 92). -/
def Crate.inSaneLives (calls : Nat → Sys) (cfg : Config) : Crate where
  form id n t r := ∃ k, (Crate.sharedAt (fun now => now + 60000000000 < 9223372036854775808 * 1000000000) (calls k).trace cfg).form id n t r
  url id r := ∃ k, (Crate.sharedAt (fun now => now + 60000000000 < 9223372036854775808 * 1000000000) (calls k).trace cfg).url id r

end CSS.ImageUploader
