import Verif.Spec.Pkix
/-!
# SSH public keys and certificates on the wire

The format of PROTOCOL.certkeys of OpenSSH, as far as golang.org/x/crypto/ssh insists on it.
-/
namespace GoIdentity

/-- A public key that is not a certificate, and its type. -/
inductive KeyBlob : (blob type : GoString) → Prop
  | rsa {raw : GoString} {e n : Int} (ho : OddExponent e) (h : RsaBlob raw e n) : KeyBlob raw (gs! "ssh-rsa")
  | other {raw t : GoString} (h : OtherBlob raw t) : KeyBlob raw t

/-- The name of the certificates for keys of a type. -/
def CertName (type name : GoString) : Prop :=
  (type ∈ [gs! "ssh-rsa", gs! "ssh-dss", gs! "ecdsa-sha2-nistp256", gs! "ecdsa-sha2-nistp384", gs! "ecdsa-sha2-nistp521",
      gs! "ssh-ed25519"] ∧ name = type ++ gs! "-cert-v01@openssh.com") ∨
  ∃ base ∈ [gs! "sk-ecdsa-sha2-nistp256", gs! "sk-ssh-ed25519"],
    type = base ++ gs! "@openssh.com" ∧ name = base ++ gs! "-cert-v01@openssh.com"

/-- Strings one after the other. -/
inductive Strings : GoString → Prop
  | nil : Strings []
  | cons {a s r : GoString} (h : IsString a s) (t : Strings r) : Strings (a ++ r)

/-- Names with values, one after the other; a value is empty or holds a single string. -/
inductive Named : List GoString → GoString → Prop
  | nil : Named [] []
  | cons {a b name val r : GoString} {names : List GoString} (ha : IsString a name) (hb : IsString b val)
      (hv : val = [] ∨ ∃ s, IsString val s) (t : Named names r) : Named (name :: names) (a ++ b ++ r)

/-- Options of a certificate: the names are in ascending order of bytes. -/
def CertOptions (l : GoString) : Prop := ∃ names, Named names l ∧ names.Pairwise (· < ·)

/-- A signature: its format and its bytes; the formats of security keys may have anything after them. -/
def CertSignature (l : GoString) : Prop :=
  ∃ a b format bytes more, l = a ++ b ++ more ∧ IsString a format ∧ IsString b bytes ∧
    (more = [] ∨ ∃ base ∈ [gs! "sk-ecdsa-sha2-nistp256", gs! "sk-ssh-ed25519"],
      format = base ++ gs! "@openssh.com" ∨ format = base ++ gs! "-cert-v01@openssh.com")

/-- What follows the key in a certificate signed with the key `signer`: twelve bytes (a serial number and a kind), an
identifier, the principals, sixteen bytes (the times of validity), critical options, extensions, a reserved string, the key that
signed and the signature. -/
def CertTail (tail signer : GoString) : Prop :=
  ∃ numbers i p times o x r k s identifier principals options extensions reserved signature,
    tail = numbers ++ i ++ p ++ times ++ o ++ x ++ r ++ k ++ s ∧ numbers.length = 12 ∧ times.length = 16 ∧
    IsString i identifier ∧ IsString p principals ∧ IsString o options ∧ IsString x extensions ∧ IsString r reserved ∧
    IsString k signer ∧ IsString s signature ∧
    Strings principals ∧ CertOptions options ∧ CertOptions extensions ∧ CertSignature signature

/-- A public key or certificate and its type.  The type of a certificate is that for its key. -/
inductive SshBlob : (blob type : GoString) → Prop
  | key {raw t : GoString} (h : KeyBlob raw t) : SshBlob raw t
  | cert {a n p body tail name nonce plain signer t u name' : GoString} (ha : IsString a name) (hn : CertName plain name)
      (hc : IsString n nonce) (hp : IsString p plain) (hk : KeyBlob (p ++ body) t) (ht : CertTail tail signer)
      (hs : SshBlob signer u) (ht' : CertName t name') : SshBlob (a ++ n ++ body ++ tail) name'

end GoIdentity
