import Verif.Model.World
import Verif.Lemmas.Split
/-
The message exchange of all ranks.  Any arithmetic.
-/
set_option autoImplicit false

namespace DLB

theorem allRanks_ok_iff {α : Type} : ∀ {n : Nat} (f : Fin n → Except Fault α) (g : Fin n → α),
    allRanks f = .ok g ↔ ∀ i, f i = .ok (g i)
  | 0, f, g => by
    simp only [allRanks, Except.ok.injEq]
    exact ⟨fun _ i => i.elim0, fun _ => funext fun i => i.elim0⟩
  | n + 1, f, g => by
    unfold allRanks
    cases h0 : f 0 with
    | error e =>
      simp only [bind, Except.bind]
      refine ⟨fun h => by simp at h, fun h => ?_⟩
      have := h 0
      rw [h0] at this
      simp at this
    | ok a =>
      simp only [bind, Except.bind]
      cases h1 : allRanks (fun i : Fin n => f i.succ) with
      | error e =>
        simp only
        refine ⟨fun h => by simp at h, fun h => ?_⟩
        have h2 := (allRanks_ok_iff (fun i : Fin n => f i.succ) (fun i => g i.succ)).2
          (fun i => h i.succ)
        rw [h1] at h2
        simp at h2
      | ok rest =>
        have h2 := (allRanks_ok_iff (fun i : Fin n => f i.succ) rest).1 h1
        simp only [Except.ok.injEq]
        constructor
        · intro h i
          subst h
          refine Fin.cases ?_ ?_ i
          · simpa using h0
          · intro j; simpa using h2 j
        · intro h
          funext i
          refine Fin.cases ?_ ?_ i
          · have := h 0
            rw [h0] at this
            simpa using this
          · intro j
            have := h j.succ
            rw [h2 j] at this
            simpa using this

theorem allRanks_exists_iff {α : Type} {n : Nat} (f : Fin n → Except Fault α) :
    (∃ g, allRanks f = .ok g) ↔ ∀ i, ∃ a, f i = .ok a := by
  constructor
  · rintro ⟨g, hg⟩ i
    exact ⟨g i, (allRanks_ok_iff f g).1 hg i⟩
  · intro h
    choose g hg using h
    exact ⟨g, (allRanks_ok_iff f g).2 hg⟩

theorem sendAll_ok {α : Type} (buf : Nat → Except Fault α) (b : Nat → α) :
    ∀ (ds : List Nat) (k : Nat), (∀ i, i < ds.length → buf (k + i) = .ok (b (k + i))) →
    ds.Nodup →
    ∃ out, sendAll buf k ds = .ok out ∧
      ∀ r, inboxFrom r out = if r ∈ ds then [b (k + ds.idxOf r)] else []
  | [], k, _, _ => ⟨[], rfl, fun r => by simp [inboxFrom]⟩
  | d :: ds, k, hb, hnd => by
    have hnd' := List.nodup_cons.1 hnd
    obtain ⟨out, ho, hin⟩ := sendAll_ok buf b ds (k + 1)
      (fun i hi => by
        have := hb (i + 1) (by simpa using hi)
        rwa [show k + 1 + i = k + (i + 1) by omega]) hnd'.2
    have h0 := hb 0 (by simp)
    refine ⟨(d, b k) :: out, ?_, fun r => ?_⟩
    · simp only [sendAll, ho]
      rw [show k + 0 = k from rfl] at h0
      rw [h0]; rfl
    · have := hin r
      unfold inboxFrom at this ⊢
      by_cases hr : d = r
      · subst hr
        rw [if_neg hnd'.1] at this
        simp [this]
      · have hr' : ¬ r = d := fun h => hr h.symm
        simp only [List.filter_cons, beq_iff_eq, hr, if_false, this, List.mem_cons, hr', false_or]
        split
        · simp [hr]
          congr 1
          omega
        · rfl

theorem recvAll_ok {α : Type} (m : Nat → α) : ∀ (ss : List Nat) (inbox : Nat → List α),
    (∀ s ∈ ss, inbox s = [m s]) → ss.Nodup →
    recvAll inbox ss = .ok (ss.map m, fun s => if s ∈ ss then [] else inbox s)
  | [], inbox, _, _ => by simp [recvAll]
  | s :: ss, inbox, h, hnd => by
    have hnd' := List.nodup_cons.1 hnd
    have h0 := h s (by simp)
    have ih := recvAll_ok m ss (fun s' => if s' = s then [] else inbox s')
      (fun s' hs' => by
        have hne : s' ≠ s := fun he => hnd'.1 (he ▸ hs')
        simp [hne, h s' (by simp [hs'])]) hnd'.2
    simp only [recvAll, h0, ih, bind, Except.bind, Except.ok.injEq, List.map_cons,
      Prod.mk.injEq, true_and]
    funext s'
    by_cases h1 : s' = s
    · subst h1; simp
    · simp [h1]

/-- If the source and destination lists match, the exchange succeeds and every rank gets,
from each source, the block that source has for it. -/
theorem sendRecv_ok {α : Type} {n : Nat} (buf : Fin n → Nat → Except Fault α)
    (b : Nat → Nat → α) (src dst : Nat → List Nat)
    (hd : ∀ r : Fin n, ∀ d ∈ dst r, d < n) (hdn : ∀ r : Fin n, (dst r).Nodup)
    (hs : ∀ r : Fin n, ∀ s ∈ src r, s < n) (hsn : ∀ r : Fin n, (src r).Nodup)
    (hm : ∀ r s : Fin n, r.val ∈ dst s ↔ s.val ∈ src r)
    (hb : ∀ (r : Fin n) i, i < (dst r).length → buf r i = .ok (b r i)) :
    sendRecv true buf (fun r => src r) (fun r => dst r) =
      .ok (fun r => (src r).map (fun s => b s ((dst s).idxOf r.val))) := by
  have hout : ∀ r : Fin n, ∃ out, sendAll (buf r) 0 (dst r) = .ok out ∧
      ∀ q, inboxFrom q out = if q ∈ dst r then [b r ((dst r).idxOf q)] else [] := by
    intro r
    obtain ⟨out, h1, h2⟩ := sendAll_ok (buf r) (b r) (dst r) 0
      (fun i hi => by simpa using hb r i hi) (hdn r)
    exact ⟨out, h1, fun q => by simpa using h2 q⟩
  choose out ho hin using hout
  have hall : allRanks (fun r : Fin n =>
      if (dst r).all (· < n) then sendAll (buf r) 0 (dst r) else .error .fatal) = .ok out := by
    rw [allRanks_ok_iff]
    intro r
    rw [if_pos (by simpa using hd r)]
    exact ho r
  unfold sendRecv
  rw [if_pos rfl, hall]
  simp only [bind, Except.bind]
  rw [allRanks_ok_iff]
  intro r
  have hinbox : ∀ s ∈ src r, (fun s => if h : s < n then inboxFrom r.val (out ⟨s, h⟩) else []) s =
      [(fun s => b s ((dst s).idxOf r.val)) s] := by
    intro s hsr
    have hlt := hs r s hsr
    simp only [hlt, dif_pos]
    rw [hin ⟨s, hlt⟩ r.val, if_pos ((hm r ⟨s, hlt⟩).2 hsr)]
  rw [recvAll_ok _ _ _ hinbox (hsn r)]
  simp only
  rw [if_pos]
  rw [List.all_eq_true]
  intro s hsn'
  have hlt : s < n := List.mem_range.1 hsn'
  by_cases hsr : s ∈ src r
  · simp [hsr]
  · simp only [hsr, if_false, hlt, dif_pos]
    rw [hin ⟨s, hlt⟩ r.val, if_neg]
    · rfl
    · intro hc
      exact hsr ((hm r ⟨s, hlt⟩).1 hc)

end DLB
