import Verif.Conformance.Small
/-!
# The repository's own tests: public_key_test.go, user_test.go

See Conformance/Small.lean.  The tests draw an RSA key; here it is one made with openssl and ssh-keygen.  What OpenPGP says
about the key of testdata/gpg/linux_gpg_pub.pem was taken from gpg.
-/
namespace GoIdentity.Conformance
open Toy

/-- A key as `x509.MarshalPKIXPublicKey` in a PEM block (public_key_test.go:50-62). -/
def rsaBlock : GoString :=
  gs! "-----BEGIN RSA PUBLIC KEY-----\nMIIBIjANBgkqhkiG9w0BAQEFAAOCAQ8AMIIBCgKCAQEAwT2JM7UEaTVf6jESdBOO\n1fGJ" ++
  gs! "PHpRPZZkY8L96o9DifQmkhMOrXr9Rn680hwo7H29AzeR0eAvdqS2xWo/07FQ\n4vMuci1ZTPm8nVMrEUFUzo72NBYgIC/BbL6D2Qc" ++
  gs! "fxg0FSA1VWQaPMRDfvSJD8wib\ns65XtNj5GvMInIiERkOLBTDWPvuh+5wXVCkG2AsHaGu0JArxVfJElUfVBNHc+M6M\na+48JKybn" ++
  gs! "BjyrxH/PMiQ4fab9+LkSrrXd09FNGrS1TkEMHwWZnqkoXotT6NHYWDx\n1ET2rploZfIEa/R39bQ0aUxzpI8E1pKjYClAykY4NqJf" ++
  gs! "BBQL1v/UbdKjADq1annc\nIQIDAQAB\n-----END RSA PUBLIC KEY-----\n"

/-- The same key as an OpenSSH line (public_key_test.go:64-72). -/
def rsaLine : GoString :=
  gs! "ssh-rsa AAAAB3NzaC1yc2EAAAADAQABAAABAQDBPYkztQRpNV/qMRJ0E47V8Yk8elE9lmRjwv3qj0OJ9CaSEw6tev1GfrzSHCjs" ++
  gs! "fb0DN5HR4C92pLbFaj/TsVDi8y5yLVlM+bydUysRQVTOjvY0FiAgL8FsvoPZBx/GDQVIDVVZBo8xEN+9IkPzCJuzrle02Pka8wic" ++
  gs! "iIRGQ4sFMNY++6H7nBdUKQbYCwdoa7QkCvFV8kSVR9UE0dz4zoxr7jwkrJucGPKvEf88yJDh9pv34uRKutd3T0U0atLVOQQwfBZm" ++
  gs! "eqShei1Po0dhYPHURPaumWhl8gRr9Hf1tDRpTHOkjwTWkqNgKUDKRjg2ol8EFAvW/9Rt0qMAOrVqedwh\n"

/-- The beginning of its private key with the word PRIVATE replaced once (public_key_test.go:171). -/
def rsaMislabelled : GoString :=
  gs! "-----BEGIN RSA PUBLIC KEY-----\nMIIEpAIBAAKCAQEAwT2JM7UEaTVf6jESdBOO1fGJPHpRPZZkY8L96o9DifQmkhMO\nrXr9" ++
  gs! "Rn680hwo7H29AzeR0eAvdqS2xWo/07FQ4vMuci1ZTPm8nVMrEUFUzo72NBYg\nIC/BbL6D2Qcfxg0FSA1VWQaPMRDfvSJD8wibs65" ++
  gs! "XtNj5GvMInIiERkOLBTDWPvuh\n-----END RSA PRIVATE KEY-----\n"

/-- testdata/gpg/linux_gpg_pub.pem as `readPEMFile` reads it (public_key_test.go:32-48). -/
def googleKey : GoString :=
  gs! "-----BEGIN PGP PUBLIC KEY BLOCK-----\nVersion: GnuPG v1.4.2.2 (GNU/Linux)\n\nmQGiBEXwb0YRBADQva2NLpYXxg" ++
  gs! "jNkbuP0LnPoEXruGmvi3XMIxjEUFuGNCP4Rj/a\nkv2E5VixBP1vcQFDRJ+p1puh8NU0XERlhpyZrVMzzS/RdWdyXf7E5S8oqNXso" ++
  gs! "D1z\nfvmI+i9b2EhHAA19Kgw7ifV8vMa4tkwslEmcTiwiw8lyUl28Wh4Et8SxzwCggDcA\nfeGqtn3PP5YAdD0km4S4XeMEAJjlrqP" ++
  gs! "oPv2Gf//tfznY2UyS9PUqFCPLHgFLe80u\nQhI2U5jt6jUKN4fHauvR6z3seSAsh1YyzyZCKxJFEKXCCqnrFSoh4WSJsbFNc4PN\nb" ++
  gs! "0V0SqiTCkWADZyLT5wll8sWuQ5ylTf3z1ENoHf+G3um3/wk/+xmEHvj9HCTBEXP\n78X0A/0Tqlhc2RBnEf+AqxWvM8sk8LzJI/XG" ++
  gs! "jwBvKfXe+l3rnSR2kEAvGzj5Sg0X\n4XmfTg4Jl8BNjWyvm2Wmjfet41LPmYJKsux3g0b8yzQxeOA4pQKKAU3Z4+rgzGmf\nHdwCG5" ++
  gs! "MNT2A5XxD/eDd+L4fRx0HbFkIQoAi1J3YWQSiTk15fw7RMR29vZ2xlLCBJ\nbmMuIExpbnV4IFBhY2thZ2UgU2lnbmluZyBLZXkgP" ++
  gs! "GxpbnV4LXBhY2thZ2VzLWtl\neW1hc3RlckBnb29nbGUuY29tPohjBBMRAgAjAhsDBgsJCAcDAgQVAggDBBYCAwEC\nHgECF4AFAkY" ++
  gs! "Vdn8CGQEACgkQoECDD3+sWZHKSgCfdq3HtNYJLv+XZleb6HN4zOcF\nAJEAniSFbuv8V5FSHxeRimHx25671az+uQINBEXwb0sQCA" ++
  gs! "CuA8HT2nr+FM5y/kzI\nA51ZcC46KFtIDgjQJ31Q3OrkYP8LbxOpKMRIzvOZrsjOlFmDVqitiVc7qj3lYp6U\nrgNVaFv6Qu4bo2/c" ++
  gs! "tjNHDDBdv6nufmusJUWq/9TwieepM/cwnXd+HMxu1XBKRVk9\nXyAZ9SvfcW4EtxVgysI+XlptKFa5JCqFM3qJllVohMmr7lMwO8+" ++
  gs! "sxTWTXqxsptJo\npZeKz+UBEEqPyw7CUIVYGC9ENEtIMFvAvPqnhj1GS96REMpry+5s9WKuLEaclWpd\nK3krttbDlY1NaeQUCRvBY" ++
  gs! "Z8iAG9YSLHUHMTuI2oea07Rh4dtIAqPwAX8xn36JAYG\n2vgLAAMFB/wKqaycjWAZwIe98Yt0qHsdkpmIbarD9fGiA6kfkK/UxjL/" ++
  gs! "k7tmS4Vm\nCljrrDZkPSQ/19mpdRcGXtb0NI9+nyM5trweTvtPw+HPkDiJlTaiCcx+izg79Fj9\nKcofuNb3lPdXZb9tzf5oDnmm/B" ++
  gs! "+4vkeTuEZJ//IFty8cmvCpzvY+DAz1Vo9rA+Zn\ncpWY1n6z6oSS9AsyT/IFlWWBZZ17SpMHu+h4Bxy62+AbPHKGSujEGQhWq8ZRo" ++
  gs! "JAT\nG0KSObnmZ7FwFWu1e9XFoUCt0bSjiJWTIyaObMrWu/LvJ3e9I87HseSJStfw6fki\n5og9qFEkMrIrBCp3QGuQWBq/rTdMuwN" ++
  gs! "FiEkEGBECAAkFAkXwb0sCGwwACgkQoECD\nD3+sWZF/WACfeNAu1/1hwZtUo1bR+MWiCjpvHtwAnA1R3IHqFLQ2X3xJ40XPuAyY\n/" ++
  gs! "FJG\n=Quqp\n-----END PGP PUBLIC KEY BLOCK-----\n"

/-- What OpenPGP says about that key. -/
def googleEntity : PgpEntity where
  hasPrimaryKey := true
  keyIdHex := gs! "a040830f7fac5991"
  fingerprintHex := gs! "4cca1eaf950cee4ab83976dca040830f7fac5991"
  pubKeyAlgo := 17
  identities := [gs! "Google, Inc. Linux Package Signing Key <linux-packages-keymaster@google.com>"]
  created := gs! "2007-03-08 20:17:10 +0000 UTC"

/-- The toy world with that key in it. -/
@[instance_reducible] def gpgExt : Ext := { toyExt with pgpRead := fun s => if s = trimSpace googleKey then some [googleEntity] else none }

/-! ## public_key_test.go:95-203 -/

def keyView (e : Ext) (k : ReqKey) : Option (GoString × GoString × GoString) :=
  (value (@newPublicKey e nd.now (gs! "id") k)).map fun p => (p.usage, p.type, p.comment)

def keyError (k : ReqKey) : Option GoString := errText (newPublicKey nd.now (gs! "id") k)

example : keyView toyExt { usage := gs! "ssh", comment := gs! "jsmith@outlook.com", payload := rsaBlock } =
    some (gs! "ssh", gs! "ssh-rsa", gs! "jsmith@outlook.com") := by decide +kernel
example : keyView toyExt { usage := gs! "ssh", comment := gs! "jsmith@outlook.com", payload := rsaLine } =
    some (gs! "ssh", gs! "ssh-rsa", gs! "jsmith@outlook.com") := by decide +kernel
example : keyError { usage := gs! "foobar", payload := gs! "-----BEGIN RSA PUBLIC KEY-----" } =
    textOf (.withV .publicKeyInvalidUsage [gs! "foobar"] []) ∧
    textOf (.withV .publicKeyInvalidUsage [gs! "foobar"] []) ≠ none := by decide +kernel
example : keyError { usage := gs! "ssh" } = textOf (.std .publicKeyEmptyPayload) := by decide +kernel
example : keyError { usage := gs! "gpg", payload := gs! "-----BEGIN RSA PUBLIC KEY-----" } =
    textOf (.withV .publicKeyUsagePayloadMismatch [gs! "gpg"] []) ∧
    textOf (.withV .publicKeyUsagePayloadMismatch [gs! "gpg"] []) ≠ none := by decide +kernel
example : keyError { usage := gs! "ssh", payload := gs! "-----BEGIN RSA PUBLIC KEY-----" } =
    textOf (.withV .publicKeyBlockType [[]] []) ∧ textOf (.withV .publicKeyBlockType [[]] []) ≠ none := by decide +kernel
example : keyError { usage := gs! "ssh", payload := rsaMislabelled } = textOf (.withV .publicKeyBlockType [[]] []) := by
  decide +kernel
example : keyError { usage := gs! "gpg", comment := gs! "jsmith@outlook.com",
                     payload := gs! "-----BEGIN PGP PUBLIC KEY BLOCK-----" } =
    textOf (.withV .publicKeyParse [gs! "END PGP PUBLIC KEY BLOCK not found"] []) ∧
    textOf (.withV .publicKeyParse [gs! "END PGP PUBLIC KEY BLOCK not found"] []) ≠ none := by decide +kernel
example : keyView gpgExt { usage := gs! "gpg", payload := googleKey } =
    some (gs! "gpg", gs! "dsa", gs! "Google, Inc. Linux Package Signing Key <linux-packages-keymaster@google.com>, algo DSA, created 2007-03-08 20:17:10 +0000 UTC") := by
  decide +kernel
example : (value (@newPublicKey gpgExt nd.now (gs! "id") { usage := gs! "gpg", payload := googleKey })).map (·.id) =
    some (gs! "a040830f7fac5991") := by decide +kernel

/-! ## The fingerprints ssh-keygen prints for that key -/

example : (value (newPublicKey nd.now (gs! "id") { usage := gs! "ssh", payload := rsaLine })).map
      (fun p => (p.fingerprint, p.fingerprintMD5)) =
    some (gs! "SHA256:qsKIS3bgvAQpcp0gPwXRkAw0k/G5Zg/OW6SdMxA+dRQ", gs! "4f:6c:0d:a5:28:a6:dd:4e:2e:41:65:ca:f9:5e:e8:46") := by
  decide +kernel

/-! ## user_test.go:22-72 -/

/-- The key of the test. -/
def smithLine : GoString :=
  gs! "ssh-rsa AAAAB3NzaC1yc2EAAAADAQABAAACAQDnnPNq40sWtv6WsG4cICs3Cb0C9EIeKbccOTVFk4/Ptl5oEMWHaH/e5OYAfhPs" ++
  gs! "r66jC3SxCynlViXvc5+r7r9Tj1M7WGSIomZQr7c2gwyPRwT+/UBEtPi63LIAubb9rkdnZEmxU3hxdnMzeBovFLuEMZpmL5sce+sZ" ++
  gs! "NMMBybGP9UCRZaJhyYxy0jEJI9hlg4jRK30vkzPzsO+DNIqdAv3PNkhUqJABeMiXnxCCSQcb5S65zJPkGCRXKOlloFNt3ps9auWp" ++
  gs! "JQgprrcxXFlSCvxu2UcdjegrmOMhohrxMl/VyMpbDWcyHolvZSko8uzM/G0UoR9UMrJN/AyXdzDrciqBG9EUT9NGPoA5sqWT6lt0" ++
  gs! "cS7tG7tbAfV5XoN7QikwsWkDyaPfqV9EbLOkxBZCE9RdQTVtfX9MX7rBYz2MTItZ9WLIMmsPWe4RS31JhYhSiJqgGq0K8mHors5d" ++
  gs! "fgMtiVaLUXG7hUpLRZ2qn29SkI0xIRiYUqLP1pV65EbJhy+1+2Vm2AgvdQrWrSofj6Dsw8IiyDtKx7ahgKnUbV3d4rtuo1hCikXu" ++
  gs! "8rTlfUEXgR7kSdxaSb5uzqDLlKSe27szZxUvwsyGbTgQfLukyQZB9Kvxq6J70XMRG7UikKvyR0m/Eetp4B8RX5gvNqpd+SOl+dm+" ++
  gs! "cGuqWT7UROygyf28cCqLzQ== jsmith@outlook.com"

/-- The user after `AddPassword` and `AddRole`. -/
def smith : User :=
  match User.addPassword nd.now (nd.salts 0) (gs! "jsmith123") 0 (User.new nd.now nd.userID (gs! "jsmith")) with
  | .ok u => (match User.addRole nd.now (gs! "superadmin") u with | .ok u => u | _ => u)
  | _ => User.new nd.now nd.userID (gs! "jsmith")

example : (User.new nd.now nd.userID (gs! "jsmith")).valid.isOk = false ∧
    (User.addPassword nd.now (nd.salts 0) (gs! "jsmith123") 0 (User.new nd.now nd.userID (gs! "jsmith"))).isOk = true ∧
    smith.valid.isOk = true ∧ smith.hasRoles = true ∧ smith.hasRole (gs! "superadmin") = true := by decide +kernel

/-- Add the key, delete it by its ID, count. -/
def addAndDelete : Option (Nat × Nat) :=
  match smith.addPublicKey nd { usage := gs! "ssh", payload := smithLine, comment := gs! "jsmith@outlook.com" } with
  | .ok u =>
    match u.publicKeys with
    | k :: _ =>
      match u.deletePublicKey nd.now { id := k.id } with
      | .ok u' => some (u.publicKeys.length, u'.publicKeys.length)
      | _ => none
    | [] => none
  | _ => none

example : addAndDelete = some (1, 0) := by decide +kernel

end GoIdentity.Conformance
