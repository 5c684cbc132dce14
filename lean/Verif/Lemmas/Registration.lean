import Verif.Lemmas.FillRecords
import Verif.Lemmas.Codec
import Verif.Spec.Registration
/-!
# Writing and reading registrations and handles
-/
namespace GoIdentity

theorem registration_roundTrip {x : Registration} (h : x.Ok) : RoundTrip registrationFields .zero x x := by
  refine chain_roundTrip (by decide) ?_
  unfold registrationFields Registration.zero
  step (step_fPtr (fun a ha => user_roundTrip (h.user a ha)) rfl rfl)
  step (step_fTime h.created)
  step (step_fBool rfl)
  exact .nil _

theorem handle_roundTrip {x : OnlineHandle} (h : x.Ok) : RoundTrip handleFields newHandle x x := by
  refine chain_roundTrip (by decide) ?_
  unfold handleFields newHandle
  step (step_fStr h.github rfl)
  step (step_fStr h.twitter rfl)
  exact .nil _

theorem ints_registration : AllInts registrationFields :=
  allInts_cons (ints_fPtr ints_user) <| allInts_cons ints_fTime <| allInts_cons ints_fBool <| allInts_nil

theorem ints_handle : AllInts handleFields := allInts_cons ints_fStr <| allInts_cons ints_fStr <| allInts_nil

theorem flat_registration {n : Nat} (h : 4 ≤ n) : AllFlat n registrationFields :=
  allFlat_cons (flat_fPtr (by omega) (flat_user (by omega))) <| allFlat_cons flat_fTime <| allFlat_cons flat_fBool <| allFlat_nil

theorem flat_handle {n : Nat} : AllFlat n handleFields := allFlat_cons flat_fStr <| allFlat_cons flat_fStr <| allFlat_nil

theorem registration_reads : ReadsAs registrationFields Registration.Says := by
  intro m s r
  unfold registrationFields Registration.Says
  refine (decMembers_iff (ρ := Unit) (rest := fun _ => ()) (sls := [
      ⟨(gs! "user"), _, fun x => x.user, OptStep User.Says User.zero⟩,
      ⟨(gs! "created"), _, fun x => x.created, TimeStep⟩,
      ⟨(gs! "aprroved"), _, fun x => x.aprroved, BoolStep⟩]) ?_ ?_ (by decide) (by decide)).trans ?_
  · refine .cons ⟨rfl, _, fun _ _ => rfl, fun _ _ => rfl, by others, dec_fPtr user_reads⟩ <|
      .cons ⟨rfl, _, fun _ _ => rfl, fun _ _ => rfl, by others, dec_fTime (fun _ => rfl)⟩ <|
      .cons ⟨rfl, _, fun _ _ => rfl, fun _ _ => rfl, by others, dec_fBool (fun _ => rfl)⟩ <|
      .nil
  · intro s s' h hr
    simp only [List.forall_mem_cons] at h
    cases s; cases s'
    simp_all
  · simp only [List.forall_mem_cons, List.not_mem_nil, false_imp_iff, implies_true, and_true]

theorem handle_reads : ReadsAs handleFields OnlineHandle.Says := by
  intro m s r
  unfold handleFields OnlineHandle.Says
  refine (decMembers_iff (ρ := Unit) (rest := fun _ => ()) (sls := [
      ⟨(gs! "github"), _, fun x => x.github, TextStep⟩,
      ⟨(gs! "twitter"), _, fun x => x.twitter, TextStep⟩]) ?_ ?_ (by decide) (by decide)).trans ?_
  · refine .cons ⟨rfl, _, fun _ _ => rfl, fun _ _ => rfl, by others, dec_fStr (fun _ => rfl)⟩ <|
      .cons ⟨rfl, _, fun _ _ => rfl, fun _ _ => rfl, by others, dec_fStr (fun _ => rfl)⟩ <|
      .nil
  · intro s s' h hr
    simp only [List.forall_mem_cons] at h
    cases s; cases s'
    simp_all
  · simp only [List.forall_mem_cons, List.not_mem_nil, false_imp_iff, implies_true, and_true]

theorem unmarshal_render {σ : Type} {fs : List (Field σ)} {zero x : σ} (hr : RoundTrip fs zero x x) (hi : AllInts fs)
    (hf : AllFlat 9 fs) : unmarshal fs zero (render 0 (encStruct fs x)) = .ok x := by
  unfold unmarshal
  rw [parseDoc_render (encStruct_ints hi x) (by have := encStruct_flat hf x; omega), hr.2]
  exact hr.1

theorem unmarshal_cut {σ : Type} {fs : List (Field σ)} {zero x : σ} (hi : AllInts fs) {p q : GoString}
    (he : render 0 (encStruct fs x) = p ++ q) (hq : q ≠ []) : unmarshal fs zero p = .err (.ext (gs! "json")) := by
  unfold unmarshal
  rw [parseDoc_strict_prefix (m := encMembers fs x) (encStruct_ints hi x) he hq]

end GoIdentity
