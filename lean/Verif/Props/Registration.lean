import Verif.Lemmas.Registration
import Verif.Props.Fill
import Verif.Props.Storage
import Verif.Props.Tags
/-!
# Registrations and handles: C121
-/
namespace GoIdentity
open JsonGrammar Tag

/-! ## C121 -/

/-- C121: a new registration holds the given user, the time of the call, and is not approved; a new handle is empty. -/
theorem C121_new (now : Clock) (u : Option User) :
    (newRegistration now u).user = u ∧ (newRegistration now u).created = now 0 ∧ (newRegistration now u).aprroved = false ∧
    newHandle.github = [] ∧ newHandle.twitter = [] :=
  ⟨rfl, rfl, rfl, rfl, rfl⟩

/-- C121: a registration that is written as JSON is read back as it was, its user with all passwords, keys and tokens
included; so is a handle. -/
theorem C121_round_trip : (∀ r : Registration, r.Ok → unmarshalRegistration (marshalRegistration r) = .ok r) ∧
    ∀ h : OnlineHandle, h.Ok → unmarshalHandle (marshalHandle h) = .ok h :=
  ⟨fun _ h => unmarshal_render (registration_roundTrip h) ints_registration (flat_registration (by omega)),
    fun _ h => unmarshal_render (handle_roundTrip h) ints_handle flat_handle⟩

/-- C121: a document that was cut short is refused. -/
theorem C121_cut_refused {r : Registration} {p q : GoString} (he : marshalRegistration r = p ++ q) (hq : q ≠ []) :
    unmarshalRegistration p = .err (.ext (gs! "json")) :=
  unmarshal_cut ints_registration he hq

/-- C121: what is read from a document is what its members say. -/
theorem C121_reads_iff {b : GoString} :
    (∀ r, unmarshalRegistration b = .ok r ↔
      ∃ j, Doc j b ∧ Nests 10000 j ∧ PartStep Registration.Says j ⟨none, ⟨1, 1, 1, 0, 0, 0, 0, 0⟩, false⟩ r) ∧
    ∀ h, unmarshalHandle b = .ok h ↔ ∃ j, Doc j b ∧ Nests 10000 j ∧ PartStep OnlineHandle.Says j ⟨[], []⟩ h :=
  ⟨fun _ => unmarshal_reads registration_reads, fun _ => unmarshal_reads handle_reads⟩

/-- C121: a registration that could be read is approved exactly if the last member spelled `aprroved`, nulls left aside, is
true. -/
theorem C121_approved_iff {b : GoString} {r : Registration} (h : unmarshalRegistration b = .ok r) :
    r.aprroved = true ↔ ∃ m1 k m2, Doc (.obj (m1 ++ (k, .bool true) :: m2)) b ∧ Spelled k (gs! "aprroved") ∧
      ∀ kj ∈ m2, ¬ Concerns (gs! "aprroved") kj := by
  obtain ⟨j, hd, _, hs⟩ := (C121_reads_iff.1 r).1 h
  rcases hs with ⟨rfl, rfl⟩ | ⟨m, rfl, hs⟩
  · refine ⟨fun h => by simp at h, ?_⟩
    rintro ⟨m1, k, m2, hd', _⟩
    have := C77_unambiguous hd hd'
    simp at this
  · have hb := hs.2.2
    constructor
    · intro ht
      rcases C112_last_counts C112_scalars_overwrite.2.1 hb with ⟨_, e⟩ | ⟨m1, k, j, m2, rfl, hc, h2, hst⟩
      · rw [ht] at e
        simp at e
      · rcases hst with ⟨e, _⟩ | e
        · exact absurd e hc.2
        · rw [ht] at e
          subst e
          exact ⟨m1, k, m2, hd, hc.1, h2⟩
    · rintro ⟨m1, k, m2, hd', hk, h2⟩
      have e := C77_unambiguous hd hd'
      simp only [Json.obj.injEq] at e
      subst e
      obtain ⟨u, _, h4⟩ := Into.append.1 hb
      cases h4 with
      | other hk' _ => exact absurd hk hk'
      | take _ hst h5 =>
        rw [h5.still C112_scalars_overwrite.2.1 h2]
        rcases hst with ⟨e, _⟩ | e
        · simp at e
        · simp only [Json.bool.injEq] at e
          exact e.symm

/-- C121: the word as it is usually spelled is no spelling of the member's name, so it approves nothing. -/
theorem C121_correct_spelling_is_ignored {k : GoString} (h : Spelled k (gs! "approved")) : ¬ Spelled k (gs! "aprroved") := by
  intro h'
  have l3 : ∀ {k : GoString}, Spelled k (gs! "proved") → ¬ Spelled k (gs! "rroved") := by
    intro k h h'
    cases h with
    | letter ha h =>
      cases h' with
      | letter hb h' =>
        unfold SameLetter at ha hb
        simp only [← UInt8.toNat_inj, UInt8.reduceToNat] at ha hb
        omega
      | longS hb _ => unfold SameLetter at hb; simp only [← UInt8.toNat_inj, UInt8.reduceToNat] at hb; omega
      | kelvin hb _ => unfold SameLetter at hb; simp only [← UInt8.toNat_inj, UInt8.reduceToNat] at hb; omega
    | longS hb _ => unfold SameLetter at hb; simp only [← UInt8.toNat_inj, UInt8.reduceToNat] at hb; omega
    | kelvin hb _ => unfold SameLetter at hb; simp only [← UInt8.toNat_inj, UInt8.reduceToNat] at hb; omega
  have tl : ∀ {k n n' : GoString} {a : UInt8}, a.toNat = 97 ∨ a.toNat = 112 → Spelled k (a :: n) → Spelled k (a :: n') →
      ∃ k', Spelled k' n ∧ Spelled k' n' := by
    intro k n n' a ha h h'
    cases h with
    | letter _ h =>
      cases h' with
      | letter _ h' => exact ⟨_, h, h'⟩
      | longS hb _ => unfold SameLetter at hb; simp only [← UInt8.toNat_inj, UInt8.reduceToNat] at hb; omega
      | kelvin hb _ => unfold SameLetter at hb; simp only [← UInt8.toNat_inj, UInt8.reduceToNat] at hb; omega
    | longS hb _ => unfold SameLetter at hb; simp only [← UInt8.toNat_inj, UInt8.reduceToNat] at hb; omega
    | kelvin hb _ => unfold SameLetter at hb; simp only [← UInt8.toNat_inj, UInt8.reduceToNat] at hb; omega
  obtain ⟨k1, h1, h1'⟩ := tl (a := 97) (n := gs! "pproved") (n' := gs! "prroved") (by decide) h h'
  obtain ⟨k2, h2, h2'⟩ := tl (a := 112) (n := gs! "proved") (n' := gs! "rroved") (by decide) h1 h1'
  exact l3 h2 h2'

/-- C121: the members have the names of the tags, and of a record without contents the time alone is written. -/
theorem C121_tags : registrationFields.map (·.name) = tRegistration.jsonNames ∧ handleFields.map (·.name) = tHandle.jsonNames ∧
    (encMembers registrationFields Registration.zero).map (·.1) = tRegistration.always ∧
    (encMembers handleFields newHandle).map (·.1) = tHandle.always := by
  decide +kernel

/-- A registration of the user of C46's example, approved. -/
def sampleRegistration : Registration := ⟨sampleData.users.head?, ⟨2024, 2, 29, 23, 59, 59, 120000000, 0⟩, true⟩

example : unmarshalRegistration (marshalRegistration sampleRegistration) = .ok sampleRegistration ∧
    unmarshalRegistration ((marshalRegistration sampleRegistration).take 300) = .err (.ext (gs! "json")) ∧
    sampleRegistration.user ≠ none := by decide +kernel

example : marshalRegistration (newRegistration (fun _ => ⟨2020, 1, 2, 3, 4, 5, 0, 0⟩) (some { User.zero with username := gs! "joe" })) =
    gs! "{\n  \"user\": {\n    \"username\": \"joe\",\n    \"created\": \"0001-01-01T00:00:00Z\",\n    \"last_modified\": \"0001-01-01T00:00:00Z\"\n  },\n  \"created\": \"2020-01-02T03:04:05Z\"\n}" := by
  decide +kernel

/-- Approved, approved although a null follows, not approved in the usual spelling, not approved in the end. -/
example : (unmarshalRegistration (gs! "{\"Aprroved\":true}") = .ok ⟨none, .zero, true⟩) ∧
    unmarshalRegistration (gs! "{\"aprroved\":true,\"aprroved\":null}") = .ok ⟨none, .zero, true⟩ ∧
    unmarshalRegistration (gs! "{\"approved\":true}") = .ok ⟨none, .zero, false⟩ ∧
    unmarshalRegistration (gs! "{\"aprroved\":true,\"APRROVED\":false}") = .ok ⟨none, .zero, false⟩ := by decide +kernel

example : unmarshalHandle (marshalHandle ⟨gs! "jo\"e", []⟩) = .ok ⟨gs! "jo\"e", []⟩ ∧ marshalHandle newHandle = gs! "{}" := by
  decide +kernel

end GoIdentity
