import Verif.Model.CreditCard
import Verif.Model.Qr
import Verif.Model.ErrorText
import Verif.Spec.Toy
/-!
# The repository's own tests: names, roles, addresses, passwords, API keys, credit cards, QR codes

Each case of the test tables is evaluated in the model and must give what the table expects.  These are checks of the model
against the authors' expectations, not properties.  The repository compares error texts, so texts are compared here.
Bcrypt is the toy one of Spec/Toy.lean; the tests do not depend on its digests.
-/
namespace GoIdentity.Conformance
open Toy

/-- `%q` of a text without special characters. -/
def plainQuote (s : GoString) : GoString := gs! "\"" ++ s ++ gs! "\""

/-- The text of an error that is expected. -/
def textOf (e : GoErr) : Option GoString := e.text plainQuote

/-- The text of the error a function returned. -/
def errText {α : Type} : Res α → Option GoString
  | .err e => textOf e
  | _ => none

/-- What a function returned without an error. -/
def value {α : Type} : Res α → Option α
  | .ok a => some a
  | _ => none

/-! ## role_test.go:26-48 -/

def roleView (s : GoString) : Option (GoString × GoString × GoString) :=
  (value (newRole s)).map fun r => (r.name, r.organization, r.toStr)

example : roleView (gs! "superadmin") = some (gs! "superadmin", [], gs! "superadmin") := by decide +kernel
example : roleView (gs! "internal/superadmin") = some (gs! "superadmin", gs! "internal", gs! "internal/superadmin") := by
  decide +kernel
example : errText (newRole []) = textOf (.std .roleEmpty) ∧ errText (newRole []) ≠ none := by decide +kernel

/-! ## name_test.go:25-40 -/

example : (value (parseName (gs! "John Smith"))).map (·.fullName) = some (gs! "Smith, John") := by decide +kernel
example : errText (parseName (gs! "foobar")) = textOf (.withV .parseNameFailed [gs! "foobar"] []) ∧
    errText (parseName (gs! "foobar")) ≠ none := by decide +kernel

/-! ## email_test.go:26-54 -/

def emailView (s : GoString) : Option (GoString × GoString × Bool) :=
  (value (newEmailAddress s)).map fun m => (m.address, m.domain, m.primary)

example : emailView (gs! "jsmith@gmail.com") = some (gs! "jsmith@gmail.com", gs! "gmail.com", false) := by decide +kernel
example : (value (newEmailAddress (gs! "jsmith@gmail.com"))).map (fun m => ({ m with isPrimary := true } : EmailAddress).primary) =
    some true := by decide +kernel
example : errText (newEmailAddress (gs! "gmail.com")) = textOf (.std .emailAddressInvalid) := by decide +kernel

/-! ## password_test.go:31-99 -/

def passwordView (r : Res Password) (s : GoString) : Option (GoString × GoString × Int × Bool) :=
  (value r).map fun p => (p.purpose, p.algorithm, p.cost, p.accepts s)

example : passwordView (newPassword nd.now (nd.salts 0) (gs! "foobar")) (gs! "foobar") =
    some (gs! "generic", gs! "bcrypt", 10, true) := by decide +kernel
example : passwordView (newPasswordParams nd.now (nd.salts 0) (gs! "foobar") (gs! "generic") (gs! "bcrypt")
      (some [(gs! "cost", some 10)])) (gs! "foobar2") =
    some (gs! "generic", gs! "bcrypt", 10, false) := by decide +kernel
example : errText (newPasswordParams nd.now (nd.salts 0) (gs! "foobar") (gs! "generic") (gs! "bcrypt")
      (some [(gs! "cost", some 10000)])) =
    textOf (.withV .passwordGenerate [gs! "crypto/bcrypt: cost 10000 is outside allowed range (4,31)"] []) ∧
    textOf (.withV .passwordGenerate [gs! "crypto/bcrypt: cost 10000 is outside allowed range (4,31)"] []) ≠ none := by
  decide +kernel
example : errText (newPasswordParams nd.now (nd.salts 0) (gs! "foobar") [] [] none) = textOf (.std .passwordEmptyAlgorithm) := by
  decide +kernel
example : errText (newPasswordParams nd.now (nd.salts 0) (gs! "foobar") [] (gs! "foobar") none) =
    textOf (.withV .passwordUnsupportedAlgorithm [gs! "foobar"] []) ∧
    errText (newPasswordParams nd.now (nd.salts 0) (gs! "foobar") [] (gs! "foobar") none) ≠ none := by decide +kernel
example : errText (newPasswordParams nd.now (nd.salts 0) (gs! " ") [] [] none) = textOf (.std .passwordEmpty) := by
  decide +kernel

/-! ## api_key_test.go:32-121; the hash of the payload stands for the hash of a random payload -/

def apiHash : GoString := gs! "$2a$10$abcdefghijklmnopqrstuu5LoK.9O0bM3UHWCNeC2MTwUoQoZxnyy"

def apiKeyView (k : ReqKey) : Option (GoString × GoString × Bool) :=
  (value (newAPIKey nd.now (gs! "id") k)).map fun k => (k.usage, k.comment, k.disabled)

example : apiKeyView { usage := gs! "api", comment := gs! "jsmith-api-key", payload := apiHash } =
    some (gs! "api", gs! "jsmith-api-key", false) := by decide +kernel
example : apiKeyView { usage := gs! "api", comment := gs! "jsmith-api-key", payload := apiHash, disabled := true } =
    some (gs! "api", gs! "jsmith-api-key", true) := by decide +kernel
example : errText (newAPIKey nd.now (gs! "id") { usage := gs! "api", comment := gs! "jsmith-api-key", disabled := true }) =
    textOf (.std .apiKeyPayloadEmpty) := by decide +kernel
example : errText (newAPIKey nd.now (gs! "id") { comment := gs! "jsmith-api-key", payload := apiHash, disabled := true }) =
    textOf (.std .apiKeyUsageEmpty) := by decide +kernel
example : errText (newAPIKey nd.now (gs! "id")
      { usage := gs! "foo", comment := gs! "jsmith-api-key", payload := apiHash, disabled := true }) =
    textOf (.withV .apiKeyUsageUnsupported [gs! "foo"] []) ∧
    textOf (.withV .apiKeyUsageUnsupported [gs! "foo"] []) ≠ none := by decide +kernel
example : errText (newAPIKey nd.now (gs! "id") { usage := gs! "api", payload := apiHash, disabled := true }) =
    textOf (.std .apiKeyCommentEmpty) := by decide +kernel

/-! ## credit_card_test.go:21-38 -/

def citi : CreditCardIssuer := { name := gs! "Citigroup", aliases := [gs! "citi", gs! "citibank"] }

example : (CreditCard.new.addIssuer creditCardIssuers (gs! "citigroup")).2 ≠ none ∧
    (CreditCard.new.addIssuer (creditCardIssuers ++ [citi]) (gs! "citigroup")).2 = none ∧
    (CreditCard.new.addIssuer (creditCardIssuers ++ [citi]) (gs! "citibank")).2 = none := by decide +kernel

/-! ## pkg/qr/qr_test.go:32-158 -/

def qrView (c : QrCode) : Option (GoString × GoString) := (value c.build).map fun c => (c.text, c.encoded)

example : qrView { secret := gs! "foobar", type := gs! "totp", label := gs! "app token", period := 30, algorithm := gs! "sha1",
                   issuer := gs! "Self", digits := 6 } =
    some (gs! "otpauth://totp/app+token?secret=MZXW6YTBOI&issuer=Self&algorithm=sha1&digits=6&period=30",
      gs! "b3RwYXV0aDovL3RvdHAvYXBwK3Rva2VuP3NlY3JldD1NWlhXNllUQk9JJmlzc3Vlcj1TZWxmJmFsZ29yaXRobT1zaGExJmRpZ2l0cz02JnBlcmlvZD0zMA==") := by
  decide +kernel
example : qrView { secret := gs! "foobar", type := gs! "hotp", label := gs! "app token", algorithm := gs! "sha1",
                   issuer := gs! "Self", counter := 100 } =
    some (gs! "otpauth://hotp/app+token?secret=MZXW6YTBOI&issuer=Self&algorithm=sha1&digits=6&counter=100&period=30",
      gs! "b3RwYXV0aDovL2hvdHAvYXBwK3Rva2VuP3NlY3JldD1NWlhXNllUQk9JJmlzc3Vlcj1TZWxmJmFsZ29yaXRobT1zaGExJmRpZ2l0cz02JmNvdW50ZXI9MTAwJnBlcmlvZD0zMA==") := by
  decide +kernel
example : qrView { secret := gs! "foobar", type := gs! "totp", label := gs! "app token", issuer := gs! "Self" } =
    some (gs! "otpauth://totp/app+token?secret=MZXW6YTBOI&issuer=Self&digits=6&period=30",
      gs! "b3RwYXV0aDovL3RvdHAvYXBwK3Rva2VuP3NlY3JldD1NWlhXNllUQk9JJmlzc3Vlcj1TZWxmJmRpZ2l0cz02JnBlcmlvZD0zMA==") := by
  decide +kernel
example : errText (QrCode.build { label := gs! "app token", secret := gs! "foobar" }) =
    some (gs! "token type must be either totp or hotp") := by decide +kernel
example : errText (QrCode.build { type := gs! "totp" }) = some (gs! "token label must be set") := by decide +kernel
example : errText (QrCode.build { type := gs! "totp", label := gs! "app token" }) = some (gs! "token secret must be set") := by
  decide +kernel
example : errText (QrCode.build { type := gs! "totp", label := gs! "app token", secret := gs! "12345" }) =
    some (gs! "token secret must be at least 6 characters long") := by decide +kernel
example : errText (QrCode.build { type := gs! "totp", label := gs! "app token", secret := gs! "foobar", digits := 100 }) =
    some (gs! "digits must be between 4 and 8 numbers long") := by decide +kernel
example : errText (QrCode.build { type := gs! "totp", label := gs! "app token", secret := gs! "foobar", period := 360 }) =
    some (gs! "token period must be between 30 and 180 seconds") := by decide +kernel
example : errText (QrCode.build { type := gs! "hotp", label := gs! "app token", secret := gs! "foobar" }) =
    some (gs! "hotp token counter must be set") := by decide +kernel
example : errText (QrCode.build { type := gs! "totp", label := gs! "app token", secret := gs! "foobar", algorithm := gs! "foobar" }) =
    some (gs! "token algo must be SHA1, SHA256, or SHA512") := by decide +kernel
example : errText (QrCode.build {}) = some (gs! "token label must be set") := by decide +kernel

end GoIdentity.Conformance
