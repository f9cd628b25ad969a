import Verif.Model.Mpi
import Verif.Lemmas.Exchange
import Verif.Props.Serial
import Mathlib.Data.Finset.Basic
import Mathlib.Data.Fintype.Basic
/-
The interleaving semantics: commuting steps and the canonical run.
-/
set_option autoImplicit false
set_option linter.unusedSectionVars false

namespace DLB

/-! ### Runs of a relation whose steps commute -/

section Abstract
variable {α : Type} {rel : α → α → Prop}

theorem Steps.trans {k m : Nat} {a b c : α} (h : Steps rel k a b) (h' : Steps rel m b c) :
    Steps rel (k + m) a c := by
  induction h with
  | refl => simpa using h'
  | head hr _ ih =>
    have := Steps.head hr (ih h')
    rw [Nat.add_right_comm]; exact this

/-- Steps commute or coincide. -/
def Diamond (rel : α → α → Prop) : Prop :=
  ∀ a b c, rel a b → rel a c → b = c ∨ ∃ d, rel b d ∧ rel c d

theorem Steps.shorten (hd : Diamond rel) {z : α} (hz : ∀ y, ¬ rel z y) :
    ∀ (k : Nat) (a b : α), rel a b → Steps rel k a z → ∃ k', k = k' + 1 ∧ Steps rel k' b z
  | 0, a, b, hab, h => by
    cases h; exact absurd hab (hz b)
  | k + 1, a, b, hab, h => by
    cases h with
    | @head _ _ c _ hac hcz =>
      refine ⟨k, rfl, ?_⟩
      rcases hd a b c hab hac with h | ⟨d, hbd, hcd⟩
      · rw [h]; exact hcz
      · obtain ⟨k', rfl, hdz⟩ := Steps.shorten hd hz k c d hcd hcz
        exact .head hbd hdz

/-- If some run ends in a state without successors, then no run is longer, and every run can be
continued to that state by the missing number of steps. -/
theorem Steps.all_runs (hd : Diamond rel) {z : α} (hz : ∀ y, ¬ rel z y) :
    ∀ (m k : Nat) (a b : α), Steps rel k a z → Steps rel m a b →
      m ≤ k ∧ Steps rel (k - m) b z
  | 0, k, a, b, h, hb => by
    cases hb; exact ⟨Nat.zero_le _, h⟩
  | m + 1, k, a, b, h, hb => by
    cases hb with
    | head hac hcb =>
      obtain ⟨k', rfl, h'⟩ := Steps.shorten hd hz k _ _ hac h
      obtain ⟨h1, h2⟩ := Steps.all_runs hd hz m k' _ b h' hcb
      refine ⟨Nat.succ_le_succ h1, ?_⟩
      rwa [Nat.add_sub_add_right]

/-- Some number of steps. -/
def Reach (rel : α → α → Prop) (a b : α) : Prop := ∃ k, Steps rel k a b

theorem Reach.refl (a : α) : Reach rel a a := ⟨0, .refl a⟩

theorem Reach.trans {a b c : α} : Reach rel a b → Reach rel b c → Reach rel a c :=
  fun ⟨_, h⟩ ⟨_, h'⟩ => ⟨_, h.trans h'⟩

theorem Reach.one {a b : α} (h : rel a b) : Reach rel a b := ⟨1, .head h (.refl b)⟩

end Abstract

/-! ### Steps of different ranks commute -/

section Commute
variable {S R : Type} {n : Nat}

theorem localStep_posts {a b : RankState S R} (h : localStep n a = some b) :
    a.posts <+: b.posts := by
  unfold localStep at h
  split at h
  · simp at h
  · simp at h
  · simp only [Option.some.injEq] at h; subst h; exact List.prefix_rfl
  · split at h <;> (simp only [Option.some.injEq] at h; subst h; exact List.prefix_rfl)
  · split at h <;> (simp only [Option.some.injEq] at h; subst h; exact List.prefix_rfl)
  · split at h
    · simp at h
    · simp only [Option.some.injEq] at h; subst h; exact List.prefix_append _ _
  · split at h
    · simp at h
    · simp only [Option.some.injEq] at h; subst h; exact List.prefix_append _ _

theorem complete_posts (me : Fin n) (a : RankState S R) (f : Fin n → Post S) :
    (complete me a f).posts = a.posts := by
  unfold complete
  split
  · split <;> rfl
  · split <;> rfl
  · rfl

theorem rankStep_posts {me : Fin n} {c : Config S R n} {b : RankState S R}
    (h : rankStep me c = some b) : (c me).posts <+: b.posts := by
  unfold rankStep at h
  split at h
  · next b' hb =>
    simp only [Option.some.injEq] at h; subst h
    exact localStep_posts hb
  · split at h
    · rw [Option.map_eq_some_iff] at h
      obtain ⟨f, _, rfl⟩ := h
      rw [complete_posts]
    · simp at h

theorem collect_update {me : Fin n} {c : Config S R n} {b : RankState S R}
    (hb : (c me).posts <+: b.posts) {e : Nat} {f : Fin n → Post S}
    (h : collect c e = some f) : collect (Function.update c me b) e = some f := by
  unfold collect at h ⊢
  split at h
  · next hall =>
    simp only [Option.some.injEq] at h
    have hall' : ∀ j, e < (Function.update c me b j).posts.length := by
      intro j
      by_cases hj : j = me
      · subst hj
        rw [Function.update_self]
        exact lt_of_lt_of_le (hall j) hb.length_le
      · rw [Function.update_of_ne hj]; exact hall j
    rw [dif_pos hall', Option.some.injEq, ← h]
    funext j
    by_cases hj : j = me
    · subst hj
      have h1 : ∀ (s : RankState S R) (hs : s = b) (hlt : e < s.posts.length),
          s.posts[e] = (c j).posts[e]'(hall j) := by
        intro s hs hlt
        subst hs
        exact (hb.getElem (hall j)).symm
      exact h1 _ (Function.update_self j b c) _
    · have h1 : ∀ (s : RankState S R) (hs : s = c j) (hlt : e < s.posts.length),
          s.posts[e] = (c j).posts[e]'(hall j) := by
        intro s hs hlt
        subst hs; rfl
      exact h1 _ (Function.update_of_ne hj b c) _
  · simp at h

theorem rankStep_update {i j : Fin n} (hij : i ≠ j) {c : Config S R n} {a b : RankState S R}
    (ha : rankStep i c = some a) (hb : rankStep j c = some b) :
    rankStep j (Function.update c i a) = some b := by
  have hj : Function.update c i a j = c j := Function.update_of_ne hij.symm _ _
  have hp := rankStep_posts ha
  unfold rankStep at hb ⊢
  rw [hj]
  split at hb
  · exact hb
  · split at hb
    · next hw =>
      rw [if_pos hw]
      rw [Option.map_eq_some_iff] at hb ⊢
      obtain ⟨f, hf, rfl⟩ := hb
      exact ⟨f, collect_update hp hf, rfl⟩
    · simp at hb

theorem step_diamond : Diamond (Step (S := S) (R := R) (n := n)) := by
  intro c c1 c2 h1 h2
  obtain ⟨i, a, ha, rfl⟩ := h1
  obtain ⟨j, b, hb, rfl⟩ := h2
  by_cases hij : i = j
  · subst hij
    rw [ha, Option.some.injEq] at hb
    subst hb; exact .inl rfl
  · refine .inr ⟨Function.update (Function.update c i a) j b,
      ⟨j, b, rankStep_update hij ha hb, rfl⟩,
      ⟨i, a, rankStep_update (Ne.symm hij) hb ha, ?_⟩⟩
    rw [Function.update_comm hij]

theorem fail_persists {c c' : Config S R n} {k : Nat} (h : Steps Step k c c') (r : Fin n)
    (hr : (c r).prog = .fail) : (c' r).prog = .fail := by
  induction h with
  | refl => exact hr
  | head hs _ ih =>
    apply ih
    obtain ⟨me, b, hb, rfl⟩ := hs
    by_cases h : r = me
    · subst h
      exfalso
      unfold rankStep localStep waiting at hb
      simp [hr] at hb
    · rwa [Function.update_of_ne h]

theorem done_no_step {c : Config S R n} (h : ∀ r, ∃ x, (c r).prog = .done x) :
    ∀ c', ¬ Step c c' := by
  rintro c' ⟨me, b, hb, _⟩
  obtain ⟨x, hx⟩ := h me
  unfold rankStep localStep waiting at hb
  simp [hx] at hb

/-! ### Running all ranks -/

/-- Any number of local steps of one rank. -/
def LocalRun (n : Nat) (a b : RankState S R) : Prop :=
  Reach (fun a b => localStep n a = some b) a b

theorem LocalRun.lift_one {c : Config S R n} {i : Fin n} {b : RankState S R}
    (h : LocalRun n (c i) b) : Reach Step c (Function.update c i b) := by
  obtain ⟨k, h⟩ := h
  generalize ha : c i = a at h
  induction h generalizing c with
  | refl a => rw [← ha, Function.update_eq_self]; exact .refl _
  | @head k a a' b hs _ ih =>
    have h1 : Step c (Function.update c i a') := by
      refine ⟨i, a', ?_, rfl⟩
      unfold rankStep
      rw [ha, hs]
    have h2 := ih (c := Function.update c i a') (Function.update_self ..)
    rw [Function.update_idem] at h2
    exact (Reach.one h1).trans h2

/-- Let all ranks advance, one after the other, if each can do so no matter which of the others
already have. -/
theorem Reach.all_ranks {a b : Config S R n}
    (h : ∀ (s : Finset (Fin n)) (i : Fin n), i ∉ s →
      Reach Step (fun j => if j ∈ s then b j else a j)
        (Function.update (fun j => if j ∈ s then b j else a j) i (b i))) :
    Reach Step a b := by
  have key : ∀ s : Finset (Fin n), Reach Step a (fun j => if j ∈ s then b j else a j) := by
    intro s
    induction s using Finset.induction_on with
    | empty => simpa using Reach.refl a
    | insert i s hi ih =>
      refine ih.trans ?_
      convert h s i hi using 1
      funext j
      by_cases hj : j = i
      · subst hj; simp
      · rw [Function.update_of_ne hj]; simp [hj]
  simpa using key Finset.univ

theorem LocalRun.lift {a b : Config S R n} (h : ∀ i, LocalRun n (a i) (b i)) :
    Reach Step a b := by
  refine Reach.all_ranks fun s i hi => LocalRun.lift_one ?_
  simp only [hi, if_false]
  exact h i

/-- All ranks pass a collective operation. -/
theorem Reach.collective {a p b : Config S R n} {e : Nat} (f : Fin n → Post S)
    (hpost : ∀ i, localStep n (a i) = some (p i))
    (hlen : ∀ i, (p i).posts.length = e + 1) (hf : ∀ i, (p i).posts[e]? = some (f i))
    (hwait : ∀ i, localStep n (p i) = none ∧ waiting (p i) = true)
    (hb : ∀ i, complete i (p i) f = b i) : Reach Step a b := by
  have h1 : Reach Step a p := LocalRun.lift fun i => Reach.one (hpost i)
  refine h1.trans (Reach.all_ranks fun s i hi => Reach.one ⟨i, b i, ?_, rfl⟩)
  have hposts : ∀ j, (if j ∈ s then b j else p j).posts = (p j).posts := by
    intro j
    split
    · rw [← hb j, complete_posts]
    · rfl
  have hc : collect (fun j => if j ∈ s then b j else p j) e = some f := by
    unfold collect
    rw [dif_pos (fun j => by rw [hposts j, hlen j]; exact Nat.lt_succ_self e)]
    simp only [Option.some.injEq]
    funext j
    have h3 : (if j ∈ s then b j else p j).posts[e]? = some (f j) := by rw [hposts j, hf j]
    exact (List.getElem?_eq_some_iff.1 h3).2
  unfold rankStep
  simp only [hi, if_false, (hwait i).1, (hwait i).2, if_true, hlen i, Nat.add_sub_cancel, hc,
    Option.map_some, hb i]

theorem Reach.gather {x : Fin n → ChemistryLoad S} {k : Fin n → List (ChemistryLoad S) → Prog S R}
    {o : Fin n → List (Nat × List (Tok S))} {inb : Fin n → Nat → List (List (Tok S))}
    {p : Fin n → List (Post S)} {e : Nat} (hp : ∀ i, (p i).length = e) :
    Reach Step (fun i => ⟨.gather (x i) (k i), o i, inb i, false, p i⟩)
      (fun i => ⟨k i (List.ofFn x), o i, inb i, false, p i ++ [.load (x i)]⟩) := by
  refine Reach.collective (e := e) (fun i => .load (x i))
    (p := fun i => ⟨.gather (x i) (k i), o i, inb i, true, p i ++ [.load (x i)]⟩) ?_ ?_ ?_ ?_ ?_
  · intro i; simp [localStep]
  · intro i; simp [hp i]
  · intro i; simp [hp i]
  · intro i; simp [localStep, waiting]
  · intro i
    have h : allRanks (fun j : Fin n => (.ok (x j) : Except Fault _)) = .ok x :=
      (allRanks_ok_iff _ _).2 fun _ => rfl
    simp only [complete, h]

theorem Reach.exchange {k : Fin n → Prog S R} {o : Fin n → List (Nat × List (Tok S))}
    {inb : Fin n → Nat → List (List (Tok S))} {p : Fin n → List (Post S)} {e : Nat} (hp : ∀ i, (p i).length = e) :
    Reach Step (fun i => ⟨.exchange (k i), o i, inb i, false, p i⟩)
      (fun i => ⟨k i, [], fun s => if h : s < n then inboxFrom i.val (o ⟨s, h⟩) else [], false,
        p i ++ [.msgs (o i)]⟩) := by
  refine Reach.collective (e := e) (fun i => .msgs (o i))
    (p := fun i => ⟨.exchange (k i), [], inb i, true, p i ++ [.msgs (o i)]⟩) ?_ ?_ ?_ ?_ ?_
  · intro i; simp [localStep]
  · intro i; simp [hp i]
  · intro i; simp [hp i]
  · intro i; simp [localStep, waiting]
  · intro i
    have h : allRanks (fun j : Fin n => (.ok (o j) : Except Fault _)) = .ok o :=
      (allRanks_ok_iff _ _).2 fun _ => rfl
    simp only [complete, h]

/-! ### sendRecv -/

theorem sendLoop_run {α : Type} (put : α → List (Tok S)) (buf : Nat → Except Fault α)
    (k : Prog S R) (inb po) :
    ∀ (ds : List Nat) (i : Nat) (out : List (Nat × α)) (o), (∀ d ∈ ds, d < n) →
    sendAll buf i ds = .ok out →
    LocalRun n ⟨sendLoop (encoded put buf) i ds k, o, inb, false, po⟩
      ⟨k, o ++ out.map (fun m => (m.1, put m.2)), inb, false, po⟩
  | [], i, out, o, _, h => by
    simp only [sendAll, Except.ok.injEq] at h
    subst h
    simp only [sendLoop, List.map_nil, List.append_nil]
    exact .refl _
  | d :: ds, i, out, o, hd, h => by
    simp only [sendAll, bind, Except.bind] at h
    cases hb : buf i with
    | error e => simp [hb] at h
    | ok m =>
      simp only [hb] at h
      cases hs : sendAll buf (i + 1) ds with
      | error e => simp [hs] at h
      | ok ms =>
        simp only [hs, Except.ok.injEq] at h
        subst h
        have ih := sendLoop_run put buf k inb po ds (i + 1) ms (o ++ [(d, put m)])
          (fun d' hd' => hd d' (List.mem_cons_of_mem _ hd')) hs
        rw [List.append_assoc] at ih
        refine Reach.trans (Reach.one ?_) ih
        simp [sendLoop, localStep, encoded, hb, hd d List.mem_cons_self]

theorem recvLoop_run {α : Type} {put : α → List (Tok S)} {get : Reader S α}
    (hrt : RoundTrips put get) (o po) :
    ∀ (ss : List Nat) (k : List α → Prog S R) (inbox left : Nat → List α) (xs : List α),
    recvAll inbox ss = .ok (xs, left) →
    LocalRun n ⟨recvLoop get ss k, o, fun s => (inbox s).map put, false, po⟩
      ⟨k xs, o, fun s => (left s).map put, false, po⟩
  | [], k, inbox, left, xs, h => by
    simp only [recvAll, Except.ok.injEq, Prod.mk.injEq] at h
    obtain ⟨rfl, rfl⟩ := h
    exact .refl _
  | s :: ss, k, inbox, left, xs, h => by
    unfold recvAll at h
    cases hi : inbox s with
    | nil => simp [hi] at h
    | cons m ms =>
      simp only [hi, bind, Except.bind] at h
      cases hr : recvAll (fun s' => if s' = s then ms else inbox s') ss with
      | error e => simp [hr] at h
      | ok y =>
        obtain ⟨ys, left'⟩ := y
        simp only [hr, Except.ok.injEq, Prod.mk.injEq] at h
        obtain ⟨rfl, rfl⟩ := h
        have ih := recvLoop_run hrt o po ss (fun ys => k (m :: ys)) _ _ _ hr
        refine Reach.trans (Reach.one ?_) ih
        have hm : get (put m) = .ok (m, []) := by simpa using hrt m []
        simp only [recvLoop, localStep, hi, List.map_cons, hm, Option.some.injEq,
          RankState.mk.injEq, true_and, and_true]
        funext s'
        split <;> rfl

theorem inboxFrom_map {α β : Type} (f : α → β) (r : Nat) (out : List (Nat × α)) :
    inboxFrom r (out.map (fun m => (m.1, f m.2))) = (inboxFrom r out).map f := by
  unfold inboxFrom
  induction out with
  | nil => rfl
  | cons m ms ih =>
    by_cases h : m.1 = r <;> simp [h] at ih ⊢ <;> exact ih

/-- The state of a rank between two exchanges. -/
def quiet (k : Prog S R) (p : List (Post S)) : RankState S R := ⟨k, [], fun _ => [], false, p⟩

theorem sendRecv_run {α : Type} {put : α → List (Tok S)} {get : Reader S α}
    (hrt : RoundTrips put get) (parRun : Bool) (buf : Fin n → Nat → Except Fault α)
    (sources destinations : Fin n → List Nat) (k : Fin n → List α → Prog S R)
    (res : Fin n → List α) (h : sendRecv parRun buf sources destinations = .ok res)
    (p : Fin n → List (Post S)) (e : Nat) (hp : ∀ i, (p i).length = e) :
    ∃ (p' : Fin n → List (Post S)) (e' : Nat), (∀ i, (p' i).length = e') ∧
      (parRun = true → e' = e + 1) ∧
      Reach Step (fun i => quiet (sendRecvProg parRun put get (buf i) (sources i)
        (destinations i) (k i)) (p i)) (fun i => quiet (k i (res i)) (p' i)) := by
  unfold sendRecv at h
  cases parRun with
  | false =>
    simp only [Bool.false_eq_true, if_false, Except.ok.injEq] at h
    subst h
    exact ⟨p, e, hp, by simp, by simpa [sendRecvProg] using Reach.refl _⟩
  | true =>
    simp only [if_true, bind, Except.bind] at h
    cases hout : allRanks (fun r : Fin n =>
      if (destinations r).all (· < n) then sendAll (buf r) 0 (destinations r)
      else .error .fatal) with
    | error er => rw [hout] at h; simp at h
    | ok out =>
      simp only [hout] at h
      rw [allRanks_ok_iff] at hout h
      have hd : ∀ i, (∀ d ∈ destinations i, d < n) ∧
          sendAll (buf i) 0 (destinations i) = .ok (out i) := by
        intro i
        have := hout i
        split at this
        · next hall => exact ⟨by simpa using hall, this⟩
        · simp at this
      refine ⟨fun i => p i ++ [.msgs ((out i).map (fun m => (m.1, put m.2)))], e + 1,
        fun i => by simp [hp i], fun _ => rfl, ?_⟩
      -- sends
      have h1 : Reach Step
          (fun i => quiet (sendRecvProg true put get (buf i) (sources i) (destinations i) (k i))
            (p i))
          (fun i => ⟨.exchange (recvLoop get (sources i) (fun xs => .endRead (k i xs))),
            (out i).map (fun m => (m.1, put m.2)), fun _ => [], false, p i⟩) := by
        refine LocalRun.lift fun i => ?_
        have := sendLoop_run (n := n) put (buf i)
          (.exchange (recvLoop get (sources i) (fun xs => .endRead (k i xs)))) (fun _ => [])
          (p i) (destinations i) 0 (out i) [] (hd i).1 (hd i).2
        simpa only [sendRecvProg, quiet, if_true, List.nil_append] using this
      refine h1.trans ((Reach.exchange hp).trans ?_)
      refine LocalRun.lift fun i => ?_
      have hi := h i
      cases hr : recvAll (fun s => if h : s < n then inboxFrom i.val (out ⟨s, h⟩) else [])
          (sources i) with
      | error er => simp [hr] at hi
      | ok y =>
        obtain ⟨msgs, left⟩ := y
        simp only [hr] at hi
        split at hi
        · next hall =>
          simp only [Except.ok.injEq] at hi
          have h2 := recvLoop_run (n := n) hrt []
            (p i ++ [.msgs ((out i).map (fun m => (m.1, put m.2)))]) (sources i)
            (fun xs => .endRead (k i xs)) _ _ _ hr
          have hin : (fun s => (if h : s < n then inboxFrom i.val (out ⟨s, h⟩) else []).map put) =
              (fun s => if h : s < n then
                inboxFrom i.val ((out ⟨s, h⟩).map (fun m => (m.1, put m.2))) else []) := by
            funext s
            split
            · rw [inboxFrom_map]
            · rfl
          rw [hin] at h2
          refine h2.trans (Reach.one ?_)
          have hall' : (List.range n).all (fun s => ((left s).map put).isEmpty) = true := by
            rw [List.all_eq_true] at hall ⊢
            intro s hs
            have := hall s hs
            simpa using this
          simp only [localStep, hall', if_true, quiet, hi]
        · simp at hi

end Commute
end DLB
