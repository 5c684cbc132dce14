import Verif.Lemmas.FillRecords
import Verif.Props.JsonGrammar
/-!
# What a document puts into the records: C112
-/
namespace GoIdentity
open JsonGrammar

theorem unmarshal_reads {σ : Type} {fs : List (Field σ)} {R : Members → σ → σ → Prop} (hR : ReadsAs fs R) {zero : σ} {b : GoString} {d : σ} :
    unmarshal fs zero b = .ok d ↔ ∃ j, Doc j b ∧ Nests 10000 j ∧ PartStep R j zero d := by
  unfold unmarshal
  cases h : parseDoc b with
  | none =>
    constructor
    · intro e
      cases e
    · rintro ⟨j, h1, h2, _⟩
      rw [C77_accepts_iff_grammar.2 ⟨h1, h2⟩] at h
      cases h
  | some j =>
    dsimp only
    rw [decStruct_iff hR]
    obtain ⟨h1, h2⟩ := C77_accepts_iff_grammar.1 h
    refine ⟨fun e => ⟨j, h1, h2, e⟩, ?_⟩
    rintro ⟨j', h1', _, e⟩
    rw [C77_unambiguous h1 h1']
    exact e

/-- C112: a file is read as the database `d` exactly if it is a JSON document and its members, taken in their order, lead
from the empty database to `d`: each of them changes the field its name spells, and members that spell no field are passed
over. -/
theorem C112_database {b : GoString} {d : DBData} :
    unmarshalDB b = .ok d ↔ ∃ j, Doc j b ∧ Nests 10000 j ∧ PartStep DBData.Says j DBData.zero d :=
  unmarshal_reads dBData_reads

/-- C112: the same for the answer of a security key at registration. -/
theorem C112_register_request {b : GoString} {r : RegisterRequest} :
    unmarshal registerRequestFields RegisterRequest.zero b = .ok r ↔
      ∃ j, Doc j b ∧ Nests 10000 j ∧ PartStep RegisterRequest.Says j RegisterRequest.zero r :=
  unmarshal_reads registerRequest_reads

/-- C112: the same for the answer of a security key at login. -/
theorem C112_authenticate_request {b : GoString} {r : AuthenticateRequest} :
    unmarshal authenticateRequestFields AuthenticateRequest.zero b = .ok r ↔
      ∃ j, Doc j b ∧ Nests 10000 j ∧ PartStep AuthenticateRequest.Says j AuthenticateRequest.zero r :=
  unmarshal_reads authenticateRequest_reads

/-- C112: the same for the client data a security key signs. -/
theorem C112_client_data {b : GoString} {r : ClientData} :
    unmarshal clientDataFields ClientData.zero b = .ok r ↔
      ∃ j, Doc j b ∧ Nests 10000 j ∧ PartStep ClientData.Says j ClientData.zero r :=
  unmarshal_reads clientData_reads

/-- C112: texts, marks, numbers and times overwrite each other. -/
theorem C112_scalars_overwrite : Overwrites TextStep ∧ Overwrites BoolStep ∧ Overwrites IntStep ∧ (∀ n, Overwrites (NatStep n)) ∧
    Overwrites TimeStep := by
  refine ⟨⟨?_, ?_⟩, ⟨?_, ?_⟩, ⟨?_, ?_⟩, fun n => ⟨?_, ?_⟩, ⟨?_, ?_⟩⟩
  · intro v w; simp [TextStep]
  · intro j v v' w hj h; simpa [TextStep, hj] using h
  · intro v w; simp [BoolStep]
  · intro j v v' w hj h; simpa [BoolStep, hj] using h
  · intro v w; simp [IntStep]
  · intro j v v' w hj h; simpa [IntStep, hj] using h
  · intro v w; simp [NatStep]
  · intro j v v' w hj h; simpa [NatStep, hj] using h
  · intro v w; simp [TimeStep]
  · intro j v v' w hj h; simpa [TimeStep, hj] using h

/-- C112: of several members about one such field the last one that is not null counts; with none of them the field stays. -/
theorem C112_last_counts {α : Type} {step : Json → α → α → Prop} (hs : Overwrites step) {name : GoString} {m : Members} {v w : α}
    (h : Into name step m v w) :
    ((∀ kj ∈ m, ¬ Concerns name kj) ∧ w = v) ∨
    ∃ m1 k j m2, m = m1 ++ (k, j) :: m2 ∧ Concerns name (k, j) ∧ (∀ kj ∈ m2, ¬ Concerns name kj) ∧ step j v w := by
  classical
  by_cases hc : ∀ kj ∈ m, ¬ Concerns name kj
  · exact .inl ⟨hc, h.still hs hc⟩
  · right
    have hex : ∀ m : Members, (¬ ∀ kj ∈ m, ¬ Concerns name kj) →
        ∃ m1 k j m2, m = m1 ++ (k, j) :: m2 ∧ Concerns name (k, j) ∧ ∀ kj ∈ m2, ¬ Concerns name kj := by
      intro m
      induction m with
      | nil => intro h; exact absurd (by simp) h
      | cons a m ih =>
        intro h
        by_cases hm : ∀ kj ∈ m, ¬ Concerns name kj
        · refine ⟨[], a.1, a.2, m, rfl, ?_, hm⟩
          by_contra ha
          refine h fun kj hkj => ?_
          rcases List.mem_cons.1 hkj with rfl | hkj
          · exact ha
          · exact hm kj hkj
        · obtain ⟨m1, k, j, m2, rfl, h1, h2⟩ := ih hm
          exact ⟨a :: m1, k, j, m2, rfl, h1, h2⟩
    obtain ⟨m1, k, j, m2, rfl, h1, h2⟩ := hex m hc
    refine ⟨m1, k, j, m2, rfl, h1, h2, ?_⟩
    obtain ⟨u, _, h4⟩ := Into.append.1 h
    cases h4 with
    | other hk _ => exact absurd h1.1 hk
    | take hk hst h5 =>
      rw [h5.still hs h2]
      exact hs.2 _ _ _ _ h1.2 hst

/-- C112: a time is written as RFC 3339 text that says the same time, and a text says one time at most. -/
theorem C112_times {t : GoTime} (h : t.Ok) : TimeText (fmtTime t) t ∧ ∀ t', TimeText (fmtTime t) t' → t' = t := by
  refine ⟨parseTime_iff.1 (parseTime_fmt h), fun t' h' => ?_⟩
  have := parseTime_iff.2 h'
  rw [parseTime_fmt h] at this
  exact (Option.some.inj this).symm

/-- C112: in a map read from an object every key has the value of its last member, and keys without one are as before. -/
theorem C112_maps {α : Type} {E : Json → α → Prop} {m : Members} {v w : List (GoString × α)} (h : Puts E m v w) (k : GoString) :
    ((∀ kj ∈ m, kj.1 ≠ k) ∧ mapGet k w = mapGet k v) ∨
    ∃ m1 j m2 a, m = m1 ++ (k, j) :: m2 ∧ (∀ kj ∈ m2, kj.1 ≠ k) ∧ E j a ∧ mapGet k w = some a := by
  induction h with
  | nil => exact .inl ⟨by simp, rfl⟩
  | @cons k0 j m a v w he _ ih =>
    rcases ih with ⟨h1, h2⟩ | ⟨m1, j', m2, a', rfl, h1, h2, h3⟩
    · rw [mapGet_mapInsert] at h2
      by_cases hk : k = k0
      · subst hk
        rw [if_pos rfl] at h2
        exact .inr ⟨[], j, m, a, rfl, h1, he, h2⟩
      · rw [if_neg hk] at h2
        refine .inl ⟨fun kj hkj => ?_, h2⟩
        rcases List.mem_cons.1 hkj with rfl | hkj
        · exact fun e => hk e.symm
        · exact h1 kj hkj
    · exact .inr ⟨(k0, j) :: m1, j', m2, a', rfl, h1, h2, h3⟩

/-- C112: what a record holds before its document is read: empty texts and lists, zero, false, absent, and the time
0001-01-01T00:00:00Z. -/
theorem C112_zero :
    GoTime.zero = ⟨1, 1, 1, 0, 0, 0, 0, 0⟩ ∧ fmtTime GoTime.zero = gs! "0001-01-01T00:00:00Z" ∧
    Role.zero = ⟨[], []⟩ ∧ Name.zero = ⟨[], [], [], [], false, false, false, false, false⟩ ∧ Organization.zero = ⟨0, [], []⟩ ∧
    Location.zero = ⟨[], [], [], [], false, false, false, false, false⟩ ∧ EmailAddress.zero = ⟨[], false, [], false⟩ ∧
    Password.zero = ⟨[], [], [], 0, false, .zero, .zero, false, .zero⟩ ∧
    APIKey.zero = ⟨[], [], [], [], [], false, .zero, .zero, false, .zero⟩ ∧
    PublicKey.zero = ⟨[], [], [], [], [], [], [], [], false, .zero, .zero, false, .zero⟩ ∧ MfaDevice.zero = ⟨[], [], []⟩ ∧
    MfaToken.zero = ⟨[], [], [], [], [], 0, 0, false, .zero, .zero, false, .zero, none, [], [], 0⟩ ∧
    LockoutState.zero = ⟨false, .zero, .zero⟩ ∧ Image.zero = ⟨[], [], 0, 0, []⟩ ∧
    User.zero = ⟨[], false, false, [], [], none, none, [], [], [], none, [], [], [], [], [], none, none, .zero, .zero, 0, []⟩ ∧
    Policy.zero = ⟨⟨0, 0, 0, false, false, false, false, false, false⟩, ⟨0, 0, false, false⟩⟩ ∧
    DBData.zero = ⟨[], .zero, 0, .zero, []⟩ ∧ ClientData.zero = ⟨[], false, [], []⟩ ∧ CredentialData.zero = ⟨[], [], none⟩ ∧
    AuthData.zero = ⟨[], none, 0, .null, none⟩ ∧ AttestationStatement.zero = ⟨0, [], []⟩ ∧
    AttestationObject.zero = ⟨none, none, []⟩ ∧ Device.zero = ⟨[], []⟩ ∧
    RegisterRequest.zero = ⟨[], [], [], false, none, none, none⟩ ∧
    AuthenticateRequest.zero = ⟨[], [], none, [], none, [], [], []⟩ :=
  ⟨rfl, by decide +kernel, rfl, rfl, rfl, rfl, rfl, rfl, rfl, rfl, rfl, rfl, rfl, rfl, rfl, rfl, rfl, rfl, rfl, rfl, rfl, rfl,
    rfl, rfl, rfl⟩

/-- A document with a second revision, a user list spelled with a long s, a null and a member of no field. -/
def oddDoc : GoString :=
  gs! "{\"revision\":3,\"u\\u017fers\":[{\"USERNAME\":\"joe\",\"title\":null,\"created\":\"2020-02-29T23:59:59.5+01:30\"}],\"Revision\":4,\"x\":[1]}"

example : (match unmarshalDB oddDoc with
    | .ok d => some (d.revision, d.users.map fun u => (u.username, u.title, u.created))
    | _ => none) = some (4, [(gs! "joe", [], ⟨2020, 2, 29, 23, 59, 59, 500000000, 90⟩)]) := by decide +kernel

/-- The same, said by the document itself. -/
example : ∃ j d, Doc j oddDoc ∧ PartStep DBData.Says j DBData.zero d ∧ d.revision = 4 := by
  cases h : unmarshalDB oddDoc with
  | ok d =>
    obtain ⟨j, h1, _, h3⟩ := C112_database.1 h
    refine ⟨j, d, h1, h3, ?_⟩
    have : (match unmarshalDB oddDoc with | .ok d => d.revision | _ => 0) = 4 := by decide +kernel
    rw [h] at this
    exact this
  | _ =>
    have : (match unmarshalDB oddDoc with | .ok d => d.revision | _ => 0) = 4 := by decide +kernel
    rw [h] at this
    simp at this

/-- The 29th of February 2021 is no date, a leap second and a one-digit month are not read, nine digits of the second count. -/
example : (∀ t, ¬ TimeText (gs! "2021-02-29T00:00:00Z") t) ∧ (∀ t, ¬ TimeText (gs! "2016-12-31T23:59:60Z") t) ∧
    (∀ t, ¬ TimeText (gs! "2020-1-01T00:00:00Z") t) ∧
    TimeText (gs! "2020-02-29T00:00:00.1234567899-00:30") ⟨2020, 2, 29, 0, 0, 0, 123456789, -30⟩ := by
  refine ⟨fun t h => ?_, fun t h => ?_, fun t h => ?_, parseTime_iff.1 (by decide +kernel)⟩
  · exact absurd (parseTime_iff.2 h) (by rw [show parseTime (gs! "2021-02-29T00:00:00Z") = none by decide +kernel]; simp)
  · exact absurd (parseTime_iff.2 h) (by rw [show parseTime (gs! "2016-12-31T23:59:60Z") = none by decide +kernel]; simp)
  · exact absurd (parseTime_iff.2 h) (by rw [show parseTime (gs! "2020-1-01T00:00:00Z") = none by decide +kernel]; simp)

end GoIdentity
