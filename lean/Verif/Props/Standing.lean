import Verif.Lemmas.Standing
import Verif.Props.Keys
import Verif.Props.Journal
/-!
# The journal gives the contents of the accounts: C109
-/
namespace GoIdentity
open Toy

/-- C109: in a database that was created and then used, the accounts are the accepted registrations in order, and each account
contains exactly the public keys, API keys and MFA tokens that accepted calls added and no later accepted call deleted, in order. -/
theorem C109_contents [Ext] {db : Database} (h : Created db) (fs : FS) (ops : List Op) :
    (run db fs ops).1.users.map (fun u => (u.username, u.mailClaim)) = accountsOf (journal db fs ops) ∧
    ∀ u ∈ (run db fs ops).1.users,
      u.publicKeys = publicKeysOf (journal db fs ops) u.username ∧ u.apiKeys = apiKeysOf (journal db fs ops) u.username ∧
        u.mfaTokens = mfaTokensOf (journal db fs ops) u.username := by
  have hl := ledger h fs ops
  exact ⟨hl.names, fun u hu => ⟨(hl.cont u hu).pk, (hl.cont u hu).ak, (hl.cont u hu).mt⟩⟩

/-- C109: a listing that succeeds shows what the journal says the account contains, without disabled items and, for keys, with the
requested usage only. -/
theorem C109_listings [Ext] {db : Database} (h : Created db) (fs : FS) (ops : List Op) (nd : Nondet) (fs' : FS) (req : Request) :
    ((exec .getPublicKeys nd (run db fs ops).1 fs' req).Succeeded →
      ∃ b, (exec .getPublicKeys nd (run db fs ops).1 fs' req).req.response.payload = .publicKeys b ∧
        b.items = (publicKeysOf (journal db fs ops) req.user.username).filter (fun k => k.usage = req.key.usage ∧ k.disabled = false) ∧
        b.size = b.items.length) ∧
    ((exec .getAPIKeys nd (run db fs ops).1 fs' req).Succeeded →
      ∃ b, (exec .getAPIKeys nd (run db fs ops).1 fs' req).req.response.payload = .apiKeys b ∧
        b.items = (apiKeysOf (journal db fs ops) req.user.username).filter (fun k => k.usage = req.key.usage ∧ k.disabled = false) ∧
        b.size = b.items.length) ∧
    ((exec .getMfaTokens nd (run db fs ops).1 fs' req).Succeeded →
      ∃ b, (exec .getMfaTokens nd (run db fs ops).1 fs' req).req.response.payload = .mfaTokens b ∧
        b.items = (mfaTokensOf (journal db fs ops) req.user.username).filter (fun k => k.disabled = false) ∧
        b.size = b.items.length) := by
  have hr := reach_run (.init h.opened) fs ops
  obtain ⟨_, hl⟩ := C109_contents h fs ops
  refine ⟨fun hs => ?_, fun hs => ?_, fun hs => ?_⟩
  all_goals
    obtain ⟨i, u, _, hi, hn, _⟩ := (C25_listing_succeeds hr (by simp) nd fs' req).1 hs
    obtain ⟨h1, h2, h3⟩ := hl u (List.mem_of_getElem? hi)
  · rw [← publicKeysOf_congr hn.2, ← h1]; exact C25_public_keys hr hi hn hs
  · rw [← apiKeysOf_congr hn.2, ← h2]; exact C25_api_keys hr hi hn hs
  · rw [← mfaTokensOf_congr hn.2, ← h3]; exact C25_mfa_tokens hr hi hn hs

/-- Joe's key is deleted. -/
def moreOps : List Op := someOps ++ [⟨.deleteAPIKey, reqDel, nd⟩]

example : accountsOf (journal db0 fs1 moreOps) = [(reqJoe.user.username, reqJoe.user.email), (reqAnn.user.username, reqAnn.user.email)] := by
  rw [← (C109_contents db0_created fs1 moreOps).1]; decide +kernel
example : (apiKeysOf (journal db0 fs1 someOps) (gs! "Joe")).map (·.pfx) = [joeSecret.take 24] ∧
    apiKeysOf (journal db0 fs1 moreOps) (gs! "Joe") = [] := by
  have key : ∀ (ops : List Op) (l : List GoString), (run db0 fs1 ops).1.users.map (fun u => (u.username, u.apiKeys.map (·.pfx))) =
      [(gs! "Joe", l), (gs! "ann", [])] → (apiKeysOf (journal db0 fs1 ops) (gs! "Joe")).map (·.pfx) = l := by
    intro ops l h
    have h2 := (C109_contents db0_created fs1 ops).2
    generalize (run db0 fs1 ops).1.users = us at h h2
    match us, h with
    | u :: _, h =>
      simp only [List.map_cons, List.cons.injEq, Prod.mk.injEq] at h
      have := (h2 u (by simp)).2.1
      rw [h.1.1] at this
      rw [← this]
      exact h.1.2
  refine ⟨key someOps _ (by decide +kernel), List.map_eq_nil_iff.1 (key moreOps [] (by decide +kernel))⟩

end GoIdentity
