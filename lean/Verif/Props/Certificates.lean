import Verif.Lemmas.Certificates
import Verif.Props.Pkix
/-!
# C119: what becomes of an OpenSSH line, byte by byte

`Verif/Spec/Certificates.lean` has the format of keys and certificates.
-/
namespace GoIdentity
open Toy

/-- C119: a line is refused for its type exactly if its bytes are a key or certificate of another type than `ssh-rsa`, and the
error names that type. -/
theorem C119_type_refused_iff [Ext] {now : Clock} {id : GoString} {k : ReqKey} {f c raw : GoString} (h : IsLine k f c)
    (hf : b64Decode f = some raw) (t : GoString) :
    newPublicKey now id k = .err (.withV .publicKeyTypeUnsupported [t] []) ↔ SshBlob raw t ∧ t ≠ gs! "ssh-rsa" := by
  rw [← sshParse_type_iff]
  rcases line_outcome (now := now) (id := id) h hf with ⟨h1, h2⟩ | ⟨t', w, h1, h2⟩ | ⟨e, n, p, h1, h2⟩
  · rw [h1, h2]; simp
  · rw [h1, h2]
    have hne : t' ≠ gs! "ssh-rsa" := by
      intro he
      subst he
      unfold sshParse at h1
      split at h1
      · simp at h1
      rename_i algo rest _
      split at h1
      · obtain ⟨_, _, hc, _⟩ := sshParseRsa_iff.1 h1
        simp at hc
      · rw [sshOther.eq_def] at h1
        dsimp only at h1
        split at h1
        · split at h1
          · rename_i k' hk
            simp only [Option.some.injEq] at h1
            subst h1
            obtain ⟨t, w', he, _, hn⟩ := sshPlain_other hk
            cases he
            exact hn rfl
          · simp at h1
        · repeat' split at h1
          all_goals first
            | (simp at h1; done)
            | skip
          all_goals
            simp only [Option.map_eq_some_iff] at h1
            obtain ⟨x, hx, he⟩ := h1
            have hm := List.mem_of_find?_eq_some hx
            have : ∀ x ∈ certTypes, x.2 ≠ gs! "ssh-rsa" := by decide
            simp only [SshPub.other.injEq] at he
            exact this x hm he.1
    constructor
    · intro he
      simp only [Res.err.injEq, GoErr.withV.injEq, List.cons.injEq, and_true, true_and] at he
      subst he
      exact ⟨⟨_, rfl, rfl⟩, hne⟩
    · rintro ⟨⟨k', hk, rfl⟩, _⟩
      cases hk
      rfl
  · rw [h1, h2]
    constructor
    · intro he; simp at he
    · rintro ⟨⟨k', hk, rfl⟩, hn⟩
      cases hk
      exact absurd rfl hn

/-- C119: it is refused as unreadable exactly if its bytes are neither a key nor a certificate. -/
theorem C119_unreadable_iff [Ext] {now : Clock} {id : GoString} {k : ReqKey} {f c raw : GoString} (h : IsLine k f c)
    (hf : b64Decode f = some raw) :
    newPublicKey now id k = .err (.withE .publicKeyParse [] (.ext (gs! "ssh"))) ↔ ¬ ∃ t, SshBlob raw t := by
  simp only [← sshParse_type_iff]
  rcases line_outcome (now := now) (id := id) h hf with ⟨h1, h2⟩ | ⟨t', w, h1, h2⟩ | ⟨e, n, p, h1, h2⟩
  · rw [h1, h2]; simp
  · rw [h1, h2]; simp
  · rw [h1, h2]; simp

/-- C119: it is accepted exactly if they are an RSA key. -/
theorem C119_accepted_iff [Ext] {now : Clock} {id : GoString} {k : ReqKey} {f c raw : GoString} (h : IsLine k f c)
    (hf : b64Decode f = some raw) :
    (∃ p, newPublicKey now id k = .ok p) ↔ SshBlob raw (gs! "ssh-rsa") := by
  have ht := C119_type_refused_iff (now := now) (id := id) h hf
  rcases line_outcome (now := now) (id := id) h hf with ⟨h1, h2⟩ | ⟨t', w, h1, h2⟩ | ⟨e, n, p, h1, h2⟩
  · rw [← sshParse_type_iff, h1, h2]; simp
  · obtain ⟨_, hn⟩ := (ht t').1 h2
    rw [← sshParse_type_iff, h1, h2]
    constructor
    · rintro ⟨p, hp⟩; cases hp
    · rintro ⟨k', hk, he⟩
      cases hk
      exact absurd he hn
  · rw [← sshParse_type_iff, h1, h2]
    exact ⟨fun _ => ⟨_, rfl, rfl⟩, fun _ => ⟨p, rfl⟩⟩

/-- C119: bytes have at most one type. -/
theorem C119_one_type [Ext] {raw t u : GoString} (h : SshBlob raw t) (h' : SshBlob raw u) : t = u := by
  obtain ⟨k, h1, rfl⟩ := sshParse_type_iff.2 h
  obtain ⟨k', h2, rfl⟩ := sshParse_type_iff.2 h'
  rw [h1] at h2
  cases h2
  rfl

/-- C119: so a certificate is never accepted, not even one for an RSA key. -/
theorem C119_no_certificate [Ext] {now : Clock} {id : GoString} {k : ReqKey} {f c raw t name : GoString} (h : IsLine k f c)
    (hf : b64Decode f = some raw) (hc : CertName t name) (hr : SshBlob raw name) :
    newPublicKey now id k = .err (.withV .publicKeyTypeUnsupported [name] []) := by
  refine (C119_type_refused_iff h hf name).2 ⟨hr, ?_⟩
  have : ∀ x ∈ certTypes, x.2 ≠ gs! "ssh-rsa" := by decide
  exact this _ (certName_iff.1 hc)

/-! ## Concrete cases -/

/-- A certificate for an Ed25519 key, signed with another one, with the given critical options and signature. -/
def smallCert (options signature : GoString) : GoString :=
  sshString (gs! "ssh-ed25519-cert-v01@openssh.com") ++ sshString [1, 2, 3] ++ sshString (List.replicate 32 7) ++
  List.replicate 12 0 ++ sshString (gs! "joe") ++ sshString (sshString (gs! "root") ++ sshString (gs! "admin")) ++
  List.replicate 16 255 ++ sshString options ++ sshString [] ++ sshString [] ++
  sshString (sshString (gs! "ssh-ed25519") ++ sshString (List.replicate 32 9)) ++ sshString signature

/-- An option with a value, then one without. -/
def smallOptions : GoString :=
  sshString (gs! "force-command") ++ sshString (sshString (gs! "ls")) ++ sshString (gs! "verify-required") ++ sshString []

def smallSig : GoString := sshString (gs! "ssh-ed25519") ++ sshString (List.replicate 64 5)

/-- It is a certificate by the format. -/
example [Ext] : SshBlob (smallCert smallOptions smallSig) (gs! "ssh-ed25519-cert-v01@openssh.com") :=
  sshParse_type_iff.1 ⟨.other (gs! "ssh-ed25519-cert-v01@openssh.com") ((smallCert smallOptions smallSig).drop 36),
    by decide +kernel, rfl⟩
/-- Options out of order, an option whose value is not a string, and bytes after the signature make it unreadable. -/
example [Ext] :
    (¬ ∃ t, SshBlob (smallCert (sshString [98] ++ sshString [] ++ sshString [97] ++ sshString []) smallSig) t) ∧
    (¬ ∃ t, SshBlob (smallCert (sshString [98] ++ sshString [1]) smallSig) t) ∧
    ¬ ∃ t, SshBlob (smallCert smallOptions (smallSig ++ [0])) t := by
  have key : ∀ raw, sshParse raw = none → ¬ ∃ t, SshBlob raw t := by
    rintro raw hn ⟨t, ht⟩
    obtain ⟨k, hk, _⟩ := sshParse_type_iff.2 ht
    rw [hn] at hk
    cases hk
  exact ⟨key _ (by decide +kernel), key _ (by decide +kernel), key _ (by decide +kernel)⟩
/-- The line with it. -/
example : newPublicKey nd.now [1] { usage := gs! "ssh", payload := gs! "ssh-rsa " ++ b64Encode (smallCert smallOptions smallSig) } =
    .err (.withV .publicKeyTypeUnsupported [gs! "ssh-ed25519-cert-v01@openssh.com"] []) := by decide +kernel

end GoIdentity
