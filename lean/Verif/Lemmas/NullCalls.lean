import Verif.Model.NullCalls
import Verif.Lemmas.Nulls
/-!
# Loops over lists with nulls
-/
namespace GoIdentity

theorem eachPtr_panic {α β : Type} (f : β → α → β) (l : List (Option α)) (b : β) : eachPtr f l b = .panic ↔ none ∈ l := by
  induction l generalizing b with
  | nil => simp [eachPtr]
  | cons a l ih => cases a <;> simp [eachPtr, ih]

theorem eachPtr_some {α β : Type} (f : β → α → β) (l : List α) (b : β) : eachPtr f (l.map some) b = .ok (l.foldl f b) := by
  induction l generalizing b with
  | nil => rfl
  | cons a l ih => exact ih _

theorem eachPtr_no_err {α β : Type} (f : β → α → β) (l : List (Option α)) (b : β) (e : GoErr) : eachPtr f l b ≠ .err e := by
  induction l generalizing b with
  | nil => simp [eachPtr]
  | cons a l ih => cases a <;> simp [eachPtr, ih]

theorem seekPtr_panic {α β : Type} (f : α → Option β) (l : List (Option α)) :
    seekPtr f l = .panic ↔ ∃ (pre : List α) (post : List (Option α)), l = pre.map some ++ none :: post ∧ ∀ x ∈ pre, f x = none := by
  induction l with
  | nil => simp [seekPtr]
  | cons a l ih =>
    cases a with
    | none => exact ⟨fun _ => ⟨[], l, rfl, fun _ h => (nomatch h)⟩, fun _ => rfl⟩
    | some a =>
      unfold seekPtr
      cases hf : f a with
      | some b =>
        refine ⟨fun h => (nomatch h), ?_⟩
        rintro ⟨pre, post, h, hn⟩
        cases pre with
        | nil => simp at h
        | cons p pre =>
          simp only [List.map_cons, List.cons_append, List.cons.injEq, Option.some.injEq] at h
          have := hn p (by simp)
          rw [← h.1, hf] at this
          cases this
      | none =>
        dsimp only
        rw [ih]
        constructor
        · rintro ⟨pre, post, h, hn⟩
          exact ⟨a :: pre, post, by rw [h]; rfl, by simpa [hf] using hn⟩
        · rintro ⟨pre, post, h, hn⟩
          cases pre with
          | nil => simp at h
          | cons p pre =>
            simp only [List.map_cons, List.cons_append, List.cons.injEq, Option.some.injEq] at h
            exact ⟨pre, post, h.2, fun x hx => hn x (by simp [hx])⟩

theorem seekPtr_some {α β : Type} (f : α → Option β) (l : List α) : seekPtr f (l.map some) = .ok (l.findSome? f) := by
  induction l with
  | nil => rfl
  | cons a l ih =>
    rw [List.map_cons]
    unfold seekPtr
    rw [List.findSome?_cons]
    cases f a with
    | some b => rfl
    | none => exact ih

theorem flagsLoop_eq [Ext] (l : List MfaToken) (f : ReqFlags) : User.flagsLoop l f = l.foldl NullUser.flagsStep f := by
  induction l generalizing f with
  | nil => rfl
  | cons t l ih =>
    unfold User.flagsLoop
    rw [List.foldl_cons]
    unfold NullUser.flagsStep
    dsimp only
    repeat' split
    all_goals exact ih _

theorem without_eq {α : Type} (p : α → Bool) (l : List α) (b : Bool) (acc : List α) :
    l.foldl (fun b k => if p k = true then (true, b.2) else (b.1, b.2 ++ [k])) (b, acc) = (b || l.any p, acc ++ l.filter fun k => !p k) := by
  induction l generalizing b acc with
  | nil => simp
  | cons a l ih =>
    rw [List.foldl_cons]
    cases h : p a <;> simp [h, ih]

theorem roles_fold [Ext] (l : List Role) (acc : List GoString) :
    l.foldl (fun l r => l ++ [Role.toStr r]) acc = acc ++ l.map Role.toStr := by
  induction l generalizing acc with
  | nil => simp
  | cons a l ih => simp [ih]

end GoIdentity
