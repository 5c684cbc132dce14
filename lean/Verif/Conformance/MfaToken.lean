import Verif.Conformance.Small
/-!
# The repository's own tests: mfa_token_test.go

See Conformance/Small.lean.  The test reads the clock; here it stands at a fixed time.
-/
namespace GoIdentity.Conformance
open Toy

/-- A moment in August 2021. -/
def testTime : Int := 1629000007

def ndTest : Nondet := { nd with unix := testTime }

/-- `generateTestPasscode` (mfa_token_test.go:27-45); `none` if it fails. -/
def generateTestPasscode (m : ReqMfaToken) (offset : Bool) : Option ReqMfaToken :=
  if m.passcode ≠ [] ∨ m.period = 0 then some m
  else
    let t := if offset then testTime - m.period else testTime
    (value (generateMfaCode m.secret m.algorithm m.digits (t.toNat / m.period.toNat))).map fun c => { m with passcode := c }

/-- The error of the passcode generation or of `NewMfaToken` (mfa_token_test.go:281-295). -/
def mfaError (m : ReqMfaToken) (w : ReqWebAuthn) : Option GoString :=
  if m.type = gs! "totp" ∧ m.passcode = [] then
    match generateTestPasscode m true with
    | none => errText (generateMfaCode m.secret m.algorithm m.digits ((testTime - m.period).toNat / m.period.toNat))
    | some m => errText (newMfaToken ndTest { mfaToken := m, webAuthn := w }).1
  else errText (newMfaToken ndTest { mfaToken := m, webAuthn := w }).1

/-- What the test does with a totp token that was made (mfa_token_test.go:292-312): the code of the previous step enrols it,
the request still carries that code, which validates; `123456` and the empty code do not, nor does any with another
algorithm. -/
def mfaAccepted (m : ReqMfaToken) : Bool :=
  match generateTestPasscode m true with
  | none => false
  | some m =>
    match (newMfaToken ndTest { mfaToken := m }).1 with
    | .ok t =>
      (validateCode t m.passcode testTime).isOk && !(validateCode t (gs! "123456") testTime).isOk &&
        !(validateCode t [] testTime).isOk &&
        !(validateCode { t with algorithm := gs! "sha2048" } m.passcode testTime).isOk
    | _ => false

example : mfaAccepted { comment := gs! "ms auth app", type := gs! "totp", secret := gs! "c71ca4c68bc14ec5b4ab8d3c3b63802c", algorithm := gs! "sha1", period := 30, digits := 6 } = true := by
  decide +kernel
example : mfaAccepted { comment := gs! "ms auth app", type := gs! "totp", secret := gs! "c71ca4c68bc14ec5b4ab8d3c3b63802c", algorithm := gs! "sha256", period := 30, digits := 6 } = true := by
  decide +kernel
example : mfaAccepted { comment := gs! "ms auth app", type := gs! "totp", secret := gs! "c71ca4c68bc14ec5b4ab8d3c3b63802c", algorithm := gs! "sha512", period := 30, digits := 6 } = true := by
  decide +kernel
example : mfaAccepted { secret := gs! "TJhDkLuPEtRapebVbBmV81JgdxSmZhYwLisDhA2G57yju4gWH4IRJ8KCIviDaFP5lgjsBnTG7L7yeK5kb",
                        comment := gs! "ms auth app", period := 30, digits := 6, type := gs! "totp", algorithm := gs! "sha1" } = true := by
  decide +kernel
example : mfaError { comment := gs! "ms auth app", type := gs! "totp", secret := gs! "c71ca4c68bc14ec5b4ab8d3c3b63802c", period := 30, digits := 6 } {} =
    textOf (.std .mfaTokenEmptyAlgorithm) ∧ textOf (.std .mfaTokenEmptyAlgorithm) ≠ none := by decide +kernel
example : mfaError { comment := gs! "ms auth app", type := gs! "totp", secret := gs! "c71ca4c68bc14ec5b4ab8d3c3b63802c", algorithm := gs! "sha2048", period := 30, digits := 6 } {} =
    textOf (.withV .mfaTokenInvalidAlgorithm [gs! "sha2048"] []) ∧ textOf (.withV .mfaTokenInvalidAlgorithm [gs! "sha2048"] []) ≠ none := by decide +kernel
example : mfaError { secret := gs! "c71ca4c68bc14ec5b4ab8d3c3b63802c", comment := gs! "ms auth app", period := 30, type := gs! "totp", passcode := gs! "1234" } {} =
    textOf (.withV .mfaTokenInvalidPasscode [gs! "digits length mismatch"] []) ∧ textOf (.withV .mfaTokenInvalidPasscode [gs! "digits length mismatch"] []) ≠ none := by decide +kernel
example : mfaError { secret := gs! "c71ca4c68bc14ec5b4ab8d3c3b63802c", comment := gs! "ms auth app", period := 30, type := gs! "totp", passcode := gs! "987654321" } {} =
    textOf (.withV .mfaTokenInvalidPasscode [gs! "not 4-8 characters long"] []) ∧ textOf (.withV .mfaTokenInvalidPasscode [gs! "not 4-8 characters long"] []) ≠ none := by decide +kernel
example : mfaError { secret := gs! "c71ca4c68bc14ec5b4ab8d3c3b63802c", comment := gs! "ms auth app", period := 30, type := gs! "totp", passcode := gs! "123" } {} =
    textOf (.withV .mfaTokenInvalidPasscode [gs! "not 4-8 characters long"] []) ∧ textOf (.withV .mfaTokenInvalidPasscode [gs! "not 4-8 characters long"] []) ≠ none := by decide +kernel
example : mfaError { type := gs! "foobar" } {} =
    textOf (.withV .mfaTokenInvalidType [gs! "foobar"] []) ∧ textOf (.withV .mfaTokenInvalidType [gs! "foobar"] []) ≠ none := by decide +kernel
example : mfaError {} {} = textOf (.std .mfaTokenTypeEmpty) := by decide +kernel
example : mfaError { type := gs! "totp", algorithm := gs! "foobar" } {} =
    textOf (.withV .mfaTokenInvalidAlgorithm [gs! "foobar"] []) ∧ textOf (.withV .mfaTokenInvalidAlgorithm [gs! "foobar"] []) ≠ none := by decide +kernel
example : mfaError { type := gs! "totp", algorithm := gs! "sha1", period := 10 } {} =
    textOf (.withV .mfaTokenInvalidPeriod [] [10]) ∧ textOf (.withV .mfaTokenInvalidPeriod [] [10]) ≠ none := by decide +kernel
example : mfaError { type := gs! "totp", algorithm := gs! "sha1", period := 30, digits := 2 } {} =
    textOf (.withV .mfaTokenInvalidDigits [] [2]) ∧ textOf (.withV .mfaTokenInvalidDigits [] [2]) ≠ none := by decide +kernel

/-- The registration of a real security key (mfa_token_test.go:179-223). -/
def registration : GoString :=
  gs! "eyJpZCI6ImZjZWNmN2FkLTk0MDMtNGYzZi05ZTE0LWJiYTZkN2FhNTc0YiIsInR5cGUiOiJwdWJsaWMta2V5Iiwic3VjY2VzcyI6dHJ1ZSwiYX" ++
  gs! "R0ZXN0YXRpb25PYmplY3QiOnsiYXR0U3RtdCI6eyJhbGciOi03LCJzaWciOiJNRVFDSUJSUU1tMUdsUmdLKzdVUVhZY3VjMElXRXNNOW5XZWpT" ++
  gs! "aTBjeWFRUVV2RHlBaUJIdzlCZ1BkdDl0Qzd3NUl0cjI5eEZwb2RaZ204RHZYRkpuTE9veXM2R1p3PT0iLCJ4NWMiOlsiTUlJQ3ZUQ0NBYVdnQX" ++
  gs! "dJQkFnSUVOY1JURGpBTkJna3Foa2lHOXcwQkFRc0ZBREF1TVN3d0tnWURWUVFERXlOWmRXSnBZMjhnVlRKR0lGSnZiM1FnUTBFZ1UyVnlhV0Zz" ++
  gs! "SURRMU56SXdNRFl6TVRBZ0Z3MHhOREE0TURFd01EQXdNREJhR0E4eU1EVXdNRGt3TkRBd01EQXdNRm93YmpFTE1Ba0dBMVVFQmhNQ1UwVXhFak" ++
  gs! "FRQmdOVkJBb01DVmwxWW1samJ5QkJRakVpTUNBR0ExVUVDd3daUVhWMGFHVnVkR2xqWVhSdmNpQkJkSFJsYzNSaGRHbHZiakVuTUNVR0ExVUVB" ++
  gs! "d3dlV1hWaWFXTnZJRlV5UmlCRlJTQlRaWEpwWVd3Z09UQXlNRFU0TnpZMk1Ga3dFd1lIS29aSXpqMENBUVlJS29aSXpqMERBUWNEUWdBRVpxN0" ++
  gs! "5yaVVZamtvamx3QllRWVIvWmEzeDhJc0VJL3FGWTBxN3FZWXVGQzMzdWZRSjN5NU9YcDRHcjNvWE9lRlIxWGVRTUxXSzEzRzFYMngxWW40ckI2" ++
  gs! "TnNNR293SWdZSkt3WUJCQUdDeEFvQ0JCVXhMak11Tmk0eExqUXVNUzQwTVRRNE1pNHhMamN3RXdZTEt3WUJCQUdDNVJ3Q0FRRUVCQU1DQlNBd0" ++
  gs! "lRWUxLd1lCQkFHQzVSd0JBUVFFRWdRUTdvZ29lWEljU1JPWGRUMzh6cGNIS2pBTUJnTlZIUk1CQWY4RUFqQUFNQTBHQ1NxR1NJYjNEUUVCQ3dV" ++
  gs! "QUE0SUJBUUNxeUk4MmVCeERvOXRRbTNGaXJ0S1dLOXN1dnBtcFVCUithcnBDaVZYRS9JdHdqc0w4cmtJaUczd0RRTnNHeENQc0VNNmhhVHM5Wj" ++
  gs! "hKaXlJTjVOOHFtb3JEKzNzRFBiMFNxejBmcGkzMUgybnJuV3diTUlnVmZKZEpJdC9sNkpTOHdrRFh1cU5ENmJNeUlzMmxaMUpjb3dBY1lLSVBk" ++
  gs! "NTRGUy9HWXhMVzB0bDlUWGFCK0RDZG9UQUZCYjdBNTBoVWFyZFQ4ZTF3WmhlNVZ4UVluSjZtZzlITjF2SjlVWUVOMC9ORWJtQlZnNnpFV0h5Yk" ++
  gs! "RNMlFySU4ySnpjY2JlcWRhVEI0UzBKdGdZVWhnb1IzdEN1QzRFeFk3cU4zcmJMUlUxbFNJa0NYQ2VLQ2d6TzZ2aDZzOGZSR1BhaUdkRytOMFBj" ++
  gs! "cHFHdU9LSkcrZXhEUS9IK1pBbiJdfSwiYXV0aERhdGEiOnsicnBJZEhhc2giOiI0OTk2MGRlNTg4MGU4YzY4NzQzNDE3MGY2NDc2NjA1YjhmZT" ++
  gs! "RhZWI5YTI4NjMyYzc5OTVjZjNiYTgzMWQ5NzYzIiwiZmxhZ3MiOnsiVVAiOnRydWUsIlJGVTEiOmZhbHNlLCJVViI6ZmFsc2UsIlJGVTJhIjpm" ++
  gs! "YWxzZSwiUkZVMmIiOmZhbHNlLCJSRlUyYyI6ZmFsc2UsIkFUIjp0cnVlLCJFRCI6ZmFsc2V9LCJzaWduYXR1cmVDb3VudGVyIjozLCJjcmVkZW" ++
  gs! "50aWFsRGF0YSI6eyJhYWd1aWQiOiI3b2dvZVhJY1NST1hkVDM4enBjSEtnPT0iLCJjcmVkZW50aWFsSWQiOiJzU3RHTjA3NFNBVTAiLCJwdWJs" ++
  gs! "aWNLZXkiOnsia2V5X3R5cGUiOjIsImFsZ29yaXRobSI6LTcsImN1cnZlX3R5cGUiOjEsImN1cnZlX3giOiJlYlU4cXZZTXZjSHhYTFQ1OEdkeD" ++
  gs! "ZLTjFMVldObFpvNjVmSjJxM1NzQnJBPSIsImN1cnZlX3kiOiJZTDB3c1BhSTdRZUJsZXlFWFJOdFpqQU9PZUZiSlJ6MXg2aVZZUkx4RFlNPSJ9" ++
  gs! "fSwiZXh0ZW5zaW9ucyI6e319LCJmbXQiOiJwYWNrZWQifSwiY2xpZW50RGF0YSI6eyJ0eXBlIjoid2ViYXV0aG4uY3JlYXRlIiwiY2hhbGxlbm" ++
  gs! "dlIjoiQUFBTEFBQUFBQUJlQUFBQURnQUxBQUFBQU5jQUFBYmFoUUFQQUFDeUFBQUFBQSIsIm9yaWdpbiI6Imh0dHBzOi8vbG9jYWxob3N0Ojg0" ++
  gs! "NDMiLCJjcm9zc09yaWdpbiI6ZmFsc2V9LCJkZXZpY2UiOnsibmFtZSI6IlVua25vd24gZGV2aWNlIiwidHlwZSI6InVua25vd24ifX0K"

example : mfaError { comment := gs! "u2f token", type := gs! "u2f" }
      { challenge := gs! "gBRjbIXJu7YtwaHy5eM1MgpxeYIrbpxroOkGw0D7qFxW6HDA85Wxfnh3isb2utUPnVxW", register := registration } = none ∧
    (newMfaToken ndTest { mfaToken := { comment := gs! "u2f token", type := gs! "u2f" },
                          webAuthn := { challenge := gs! "gBRjbIXJu7YtwaHy5eM1MgpxeYIrbpxroOkGw0D7qFxW6HDA85Wxfnh3isb2utUPnVxW",
                                        register := registration } }).1.isOk = true := by decide +kernel

end GoIdentity.Conformance
