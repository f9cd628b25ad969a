import Verif.Model.Serial
import Mathlib.Tactic.Common
/-
C20: messages survive transmission.
-/
set_option autoImplicit false

namespace DLB

variable {S : Type}

/-- Reading what was written restores the value and leaves exactly the rest of the stream. -/
def RoundTrips {α : Type} (put : α → List (Tok S)) (get : Reader S α) : Prop :=
  ∀ (x : α) (rest : List (Tok S)), get (put x ++ rest) = .ok (x, rest)

/-- Reading from a stream does not depend on what follows the part that is read. -/
def Local {α : Type} (get : Reader S α) : Prop :=
  ∀ ts x rest more, get ts = .ok (x, rest) → get (ts ++ more) = .ok (x, rest ++ more)

theorem getScalars_roundTrips : RoundTrips (S := S) putScalars getScalars := by
  intro xs rest
  cases xs with
  | nil => simp [putScalars, getScalars]
  | cons a xs => simp [putScalars, getScalars]

theorem getMany_roundTrips {α : Type} {put : α → List (Tok S)} {get : Reader S α}
    (h : RoundTrips put get) : ∀ (xs : List α) (rest : List (Tok S)),
    getMany get xs.length (xs.flatMap put ++ rest) = .ok (xs, rest)
  | [], rest => by simp [getMany]
  | x :: xs, rest => by
    have ih := getMany_roundTrips h xs rest
    simp only [List.length_cons, List.flatMap_cons, List.append_assoc, getMany, h x, bind,
      Except.bind, ih]

/-- C20, loads. -/
theorem C20_load_round_trips : RoundTrips (S := S) putLoad getLoad := by
  intro l rest; rfl

/-- C20, problems. -/
theorem C20_problem_round_trips : RoundTrips (S := S) putProblem getProblem := by
  intro p rest
  simp only [putProblem, getProblem, List.append_assoc, getScalars_roundTrips p.c, bind,
    Except.bind]
  rfl

/-- C20, solutions. -/
theorem C20_solution_round_trips : RoundTrips (S := S) putSolution getSolution := by
  intro p rest
  simp only [putSolution, getSolution, List.append_assoc, getScalars_roundTrips p.rr, bind,
    Except.bind]
  rfl

/-- C20, lists: of anything that itself survives, in particular lists of problems and of
solutions, as exchanged between the ranks. -/
theorem C20_list_round_trips {α : Type} {put : α → List (Tok S)} {get : Reader S α}
    (h : RoundTrips put get) : RoundTrips (putList put) (getList get) := by
  intro xs rest
  have := getMany_roundTrips h xs (.endList :: rest)
  simp only [putList, getList, List.cons_append, List.append_assoc, List.nil_append,
    this, bind, Except.bind]

/-- C20, streams: several values written one after the other are read back in the same order, and
the stream is then exhausted. -/
theorem C20_stream_round_trips {α : Type} {put : α → List (Tok S)} {get : Reader S α}
    (h : RoundTrips put get) (xs : List α) :
    getMany get xs.length (xs.flatMap put) = .ok (xs, []) := by
  have := getMany_roundTrips h xs []
  simpa using this

theorem getLabel_local : Local (S := S) getLabel := by
  intro ts x rest more h
  unfold getLabel at h
  split at h
  · simp only [Except.ok.injEq, Prod.mk.injEq] at h
    obtain ⟨rfl, rfl⟩ := h; rfl
  · simp at h

theorem getScalar_local : Local (S := S) getScalar := by
  intro ts x rest more h
  unfold getScalar at h
  split at h
  · simp only [Except.ok.injEq, Prod.mk.injEq] at h
    obtain ⟨rfl, rfl⟩ := h; rfl
  · simp at h

theorem getScalars_local : Local (S := S) getScalars := by
  intro ts x rest more h
  unfold getScalars at h
  split at h
  · next n ts =>
    split at h
    · next hn =>
      simp only [Except.ok.injEq, Prod.mk.injEq] at h
      obtain ⟨rfl, rfl⟩ := h
      simp [getScalars, hn]
    · next hn =>
      split at h
      · next xs ts =>
        split at h
        · next hx =>
          simp only [Except.ok.injEq, Prod.mk.injEq] at h
          obtain ⟨rfl, rfl⟩ := h
          simp [getScalars, hn, hx]
        · simp at h
      · simp at h
  · simp at h

theorem bind_local {α β : Type} {g : Reader S α} {f : α → Reader S β} (hg : Local g)
    (hf : ∀ a, Local (f a)) :
    Local (fun ts => (g ts).bind (fun x => f x.1 x.2)) := by
  intro ts x rest more h
  cases h1 : g ts with
  | error e => simp [h1, Except.bind] at h
  | ok y =>
    simp only [h1, Except.bind] at h
    have h2 := hg ts y.1 y.2 more h1
    have h3 := hf y.1 y.2 x rest more h
    simp only [h2, Except.bind, h3]

theorem pure_local {α : Type} (a : α) : Local (S := S) (fun ts => .ok (a, ts)) := by
  intro ts x rest more h
  simp only [Except.ok.injEq, Prod.mk.injEq] at h
  obtain ⟨rfl, rfl⟩ := h; rfl

theorem getLoad_local : Local (S := S) getLoad :=
  bind_local getLabel_local (fun _ => bind_local getScalar_local (fun _ => pure_local _))

theorem getProblem_local : Local (S := S) getProblem :=
  bind_local getScalars_local fun _ => bind_local getScalar_local fun _ =>
    bind_local getScalar_local fun _ => bind_local getScalar_local fun _ =>
    bind_local getScalar_local fun _ => bind_local getScalar_local fun _ =>
    bind_local getScalar_local fun _ => bind_local getLabel_local fun _ => pure_local _

theorem getSolution_local : Local (S := S) getSolution :=
  bind_local getScalars_local fun _ => bind_local getScalar_local fun _ =>
    bind_local getScalar_local fun _ => bind_local getLabel_local fun _ =>
    bind_local getScalar_local fun _ => pure_local _

theorem getMany_local {α : Type} {get : Reader S α} (h : Local get) :
    ∀ n, Local (getMany get n)
  | 0 => pure_local []
  | n + 1 => bind_local h fun _ => bind_local (getMany_local h n) fun _ => pure_local _

theorem getList_local {α : Type} {get : Reader S α} (h : Local get) : Local (getList get) := by
  intro ts x rest more hx
  unfold getList at hx
  split at hx
  · next n ts =>
    simp only [bind, Except.bind] at hx
    cases h1 : getMany get n ts with
    | error e => simp [h1] at hx
    | ok y =>
      obtain ⟨ys, us⟩ := y
      have h2 := getMany_local h n ts ys us more h1
      simp only [h1] at hx
      split at hx
      · next us' =>
        simp only [Except.ok.injEq, Prod.mk.injEq] at hx
        obtain ⟨rfl, rfl⟩ := hx
        simp only [List.cons_append, getList, bind, Except.bind, h2]
      · simp at hx
  · simp at hx

/-- C20, truncation: a message of which the end is missing is not accepted, whether it is a load,
or a list of problems or solutions. -/
theorem C20_truncated_is_rejected :
    (∀ (l : ChemistryLoad S) ts, ts <+: putLoad l → ts ≠ putLoad l →
      ∀ y, getLoad ts ≠ .ok y) ∧
    (∀ (ps : List (ChemistryProblem S)) ts, ts <+: putList putProblem ps →
      ts ≠ putList putProblem ps → ∀ y, getList getProblem ts ≠ .ok y) ∧
    (∀ (ss : List (ChemistrySolution S)) ts, ts <+: putList putSolution ss →
      ts ≠ putList putSolution ss → ∀ y, getList getSolution ts ≠ .ok y) := by
  have gen : ∀ {α : Type} {put : α → List (Tok S)} {get : Reader S α}, RoundTrips put get →
      Local get → ∀ x ts, ts <+: put x → ts ≠ put x → ∀ y, get ts ≠ .ok y := by
    intro α put get hr hl x ts hpre hne y hy
    obtain ⟨more, hm⟩ := hpre
    have h1 := hl ts y.1 y.2 more hy
    have h2 := hr x []
    rw [List.append_nil, ← hm, h1] at h2
    have h3 := congrArg Prod.snd (Except.ok.inj h2)
    have h4 : more = [] := (List.append_eq_nil_iff.1 h3).2
    rw [h4, List.append_nil] at hm
    exact hne hm
  exact ⟨gen C20_load_round_trips getLoad_local,
    gen (C20_list_round_trips C20_problem_round_trips) (getList_local getProblem_local),
    gen (C20_list_round_trips C20_solution_round_trips) (getList_local getSolution_local)⟩

/-- What is refused ends in a fatal error, not in undefined behaviour. -/
def Fatal {α : Type} (get : Reader S α) : Prop :=
  ∀ ts e, get ts = .error e → e = .fatal

/-- What is accepted is what the value would have been written as, and what is refused ends in a
fatal error. -/
def Exact {α : Type} (put : α → List (Tok S)) (get : Reader S α) : Prop :=
  (∀ ts x rest, get ts = .ok (x, rest) → ts = put x ++ rest) ∧ Fatal get

theorem getLabel_exact : Exact (S := S) (fun n => [.label n]) getLabel := by
  constructor
  · intro ts x rest h
    unfold getLabel at h
    split at h
    · simp only [Except.ok.injEq, Prod.mk.injEq] at h
      obtain ⟨rfl, rfl⟩ := h; rfl
    · simp at h
  · intro ts e h
    unfold getLabel at h
    split at h
    · simp at h
    · simpa using h.symm

theorem getScalar_exact : Exact (S := S) (fun x => [.scalar x]) getScalar := by
  constructor
  · intro ts x rest h
    unfold getScalar at h
    split at h
    · simp only [Except.ok.injEq, Prod.mk.injEq] at h
      obtain ⟨rfl, rfl⟩ := h; rfl
    · simp at h
  · intro ts e h
    unfold getScalar at h
    split at h
    · simp at h
    · simpa using h.symm

theorem getScalars_exact : Exact (S := S) putScalars getScalars := by
  constructor
  · intro ts x rest h
    unfold getScalars at h
    split at h
    · next n ts =>
      split at h
      · next hn =>
        simp only [Except.ok.injEq, Prod.mk.injEq] at h
        obtain ⟨rfl, rfl⟩ := h
        simp [putScalars, hn]
      · next hn =>
        split at h
        · next xs ts =>
          split at h
          · next hx =>
            simp only [Except.ok.injEq, Prod.mk.injEq] at h
            obtain ⟨rfl, rfl⟩ := h
            simp [putScalars, hn, hx]
          · simp at h
        · simp at h
    · simp at h
  · intro ts e h
    unfold getScalars at h
    split at h
    · split at h
      · simp at h
      · split at h
        · split at h
          · simp at h
          · simpa using h.symm
        · simpa using h.symm
    · simpa using h.symm

theorem bind_fatal {α β : Type} {g : Reader S α} {f : α → Reader S β} (hg : Fatal g)
    (hf : ∀ a, Fatal (f a)) : Fatal (fun ts => (g ts).bind (fun x => f x.1 x.2)) := by
  intro ts e h
  cases h1 : g ts with
  | error e' =>
    simp only [h1, Except.bind, Except.error.injEq] at h
    exact h ▸ hg ts e' h1
  | ok y =>
    simp only [h1, Except.bind] at h
    exact hf y.1 y.2 e h

theorem pure_fatal {α : Type} (a : α) : Fatal (S := S) (fun ts => .ok (a, ts)) := by
  intro ts e h
  simp at h

theorem bind_ok_inv {α β : Type} {g : Except Fault (α × List (Tok S))}
    {f : α × List (Tok S) → Except Fault β} {r : β} (h : g.bind f = .ok r) :
    ∃ a ts, g = .ok (a, ts) ∧ f (a, ts) = .ok r := by
  cases g with
  | error e => simp [Except.bind] at h
  | ok y => exact ⟨y.1, y.2, rfl, h⟩

theorem getLoad_exact : Exact (S := S) putLoad getLoad := by
  refine ⟨fun ts x rest h => ?_,
    bind_fatal getLabel_exact.2 (fun _ => bind_fatal getScalar_exact.2 (fun _ => pure_fatal _))⟩
  obtain ⟨a1, t1, h1, h⟩ := bind_ok_inv h
  obtain ⟨a2, t2, h2, h⟩ := bind_ok_inv h
  simp only [Except.ok.injEq, Prod.mk.injEq] at h
  obtain ⟨rfl, rfl⟩ := h
  rw [getLabel_exact.1 _ _ _ h1, getScalar_exact.1 _ _ _ h2]
  rfl

theorem getProblem_exact : Exact (S := S) putProblem getProblem := by
  refine ⟨fun ts x rest h => ?_,
    bind_fatal getScalars_exact.2 fun _ => bind_fatal getScalar_exact.2 fun _ =>
    bind_fatal getScalar_exact.2 fun _ => bind_fatal getScalar_exact.2 fun _ =>
    bind_fatal getScalar_exact.2 fun _ => bind_fatal getScalar_exact.2 fun _ =>
    bind_fatal getScalar_exact.2 fun _ => bind_fatal getLabel_exact.2 fun _ => pure_fatal _⟩
  obtain ⟨a1, t1, h1, h⟩ := bind_ok_inv h
  obtain ⟨a2, t2, h2, h⟩ := bind_ok_inv h
  obtain ⟨a3, t3, h3, h⟩ := bind_ok_inv h
  obtain ⟨a4, t4, h4, h⟩ := bind_ok_inv h
  obtain ⟨a5, t5, h5, h⟩ := bind_ok_inv h
  obtain ⟨a6, t6, h6, h⟩ := bind_ok_inv h
  obtain ⟨a7, t7, h7, h⟩ := bind_ok_inv h
  obtain ⟨a8, t8, h8, h⟩ := bind_ok_inv h
  simp only [Except.ok.injEq, Prod.mk.injEq] at h
  obtain ⟨rfl, rfl⟩ := h
  rw [getScalars_exact.1 _ _ _ h1, getScalar_exact.1 _ _ _ h2, getScalar_exact.1 _ _ _ h3,
    getScalar_exact.1 _ _ _ h4, getScalar_exact.1 _ _ _ h5, getScalar_exact.1 _ _ _ h6,
    getScalar_exact.1 _ _ _ h7, getLabel_exact.1 _ _ _ h8]
  simp [putProblem]

theorem getSolution_exact : Exact (S := S) putSolution getSolution := by
  refine ⟨fun ts x rest h => ?_,
    bind_fatal getScalars_exact.2 fun _ => bind_fatal getScalar_exact.2 fun _ =>
    bind_fatal getScalar_exact.2 fun _ => bind_fatal getLabel_exact.2 fun _ =>
    bind_fatal getScalar_exact.2 fun _ => pure_fatal _⟩
  obtain ⟨a1, t1, h1, h⟩ := bind_ok_inv h
  obtain ⟨a2, t2, h2, h⟩ := bind_ok_inv h
  obtain ⟨a3, t3, h3, h⟩ := bind_ok_inv h
  obtain ⟨a4, t4, h4, h⟩ := bind_ok_inv h
  obtain ⟨a5, t5, h5, h⟩ := bind_ok_inv h
  simp only [Except.ok.injEq, Prod.mk.injEq] at h
  obtain ⟨rfl, rfl⟩ := h
  rw [getScalars_exact.1 _ _ _ h1, getScalar_exact.1 _ _ _ h2, getScalar_exact.1 _ _ _ h3,
    getLabel_exact.1 _ _ _ h4, getScalar_exact.1 _ _ _ h5]
  simp [putSolution]

theorem getMany_exact {α : Type} {put : α → List (Tok S)} {get : Reader S α} (hg : Exact put get) :
    ∀ n, (∀ ts xs rest, getMany get n ts = .ok (xs, rest) →
      xs.length = n ∧ ts = xs.flatMap put ++ rest) ∧ Fatal (getMany get n)
  | 0 => by
    refine ⟨fun ts xs rest h => ?_, pure_fatal []⟩
    simp only [getMany, Except.ok.injEq, Prod.mk.injEq] at h
    obtain ⟨rfl, rfl⟩ := h
    simp
  | n + 1 => by
    have ih := getMany_exact hg n
    refine ⟨fun ts xs rest h => ?_, bind_fatal hg.2 fun _ => bind_fatal ih.2 fun _ => pure_fatal _⟩
    obtain ⟨a1, t1, h1, h⟩ := bind_ok_inv h
    obtain ⟨a2, t2, h2, h⟩ := bind_ok_inv h
    simp only [Except.ok.injEq, Prod.mk.injEq] at h
    obtain ⟨rfl, rfl⟩ := h
    obtain ⟨h3, h4⟩ := ih.1 _ _ _ h2
    rw [hg.1 _ _ _ h1, h4]
    simp [h3]

theorem getList_exact {α : Type} {put : α → List (Tok S)} {get : Reader S α} (hg : Exact put get) :
    Exact (putList put) (getList get) := by
  constructor
  · intro ts xs rest h
    unfold getList at h
    split at h
    · next n ts =>
      obtain ⟨a, us, h1, h2⟩ := bind_ok_inv h
      obtain ⟨hl, rfl⟩ := (getMany_exact hg n).1 _ _ _ h1
      clear h
      simp only at h2
      split at h2
      · simp only [Except.ok.injEq, Prod.mk.injEq] at h2
        obtain ⟨rfl, rfl⟩ := h2
        simp [putList, hl]
      · simp at h2
    · simp at h
  · intro ts e h
    unfold getList at h
    split at h
    · next n ts =>
      simp only [bind, Except.bind] at h
      cases h1 : getMany get n ts with
      | error e' =>
        simp only [h1, Except.error.injEq] at h
        exact h ▸ (getMany_exact hg n).2 _ _ h1
      | ok y =>
        simp only [h1] at h
        split at h
        · simp at h
        · simpa using h.symm
    · simpa using h.symm

/-- C20, foreign messages: a stream is accepted exactly if it begins with what some value is written
as, whether this is a load, or a list of problems or solutions, and it is then this value that is read.
Every other stream ends in a fatal error. -/
theorem C20_only_written_messages_are_accepted (ts : List (Tok S)) :
    (∀ l rest, getLoad ts = .ok (l, rest) ↔ ts = putLoad l ++ rest) ∧
    ((∀ l rest, ts ≠ putLoad l ++ rest) → getLoad ts = .error .fatal) ∧
    (∀ ps rest, getList getProblem ts = .ok (ps, rest) ↔ ts = putList putProblem ps ++ rest) ∧
    ((∀ ps rest, ts ≠ putList putProblem ps ++ rest) → getList getProblem ts = .error .fatal) ∧
    (∀ ss rest, getList getSolution ts = .ok (ss, rest) ↔ ts = putList putSolution ss ++ rest) ∧
    ((∀ ss rest, ts ≠ putList putSolution ss ++ rest) → getList getSolution ts = .error .fatal) := by
  have gen : ∀ {α : Type} {put : α → List (Tok S)} {get : Reader S α}, RoundTrips put get →
      Exact put get → (∀ x rest, get ts = .ok (x, rest) ↔ ts = put x ++ rest) ∧
        ((∀ x rest, ts ≠ put x ++ rest) → get ts = .error .fatal) := by
    intro α put get hr he
    refine ⟨fun x rest => ⟨he.1 ts x rest, fun h => h ▸ hr x rest⟩, fun h => ?_⟩
    cases h1 : get ts with
    | error e => rw [he.2 ts e h1]
    | ok y => exact absurd (he.1 ts y.1 y.2 h1) (h y.1 y.2)
  obtain ⟨l1, l2⟩ := gen C20_load_round_trips getLoad_exact
  obtain ⟨p1, p2⟩ := gen (C20_list_round_trips C20_problem_round_trips) (getList_exact getProblem_exact)
  obtain ⟨s1, s2⟩ := gen (C20_list_round_trips C20_solution_round_trips) (getList_exact getSolution_exact)
  exact ⟨l1, l2, p1, p2, s1, s2⟩

/-- A list of solutions whose end is not where its size says is refused, and so is a list of problems read as
solutions. -/
example : getList getSolution ([.label 1, .beginList] ++ putSolution ⟨[1, 2], 3, 4, 5, (6 : Nat)⟩ ++
      putSolution ⟨[], 3, 4, 5, 6⟩ ++ [.endList]) = .error .fatal ∧
    getList getSolution (putList putProblem [⟨[1, 2], 3, 4, 5, 6, 7, 8, (9 : Nat)⟩]) = .error .fatal := by
  decide +kernel

/-- A list of two problems (one with empty composition) followed by a load. -/
example : (getList getProblem (putList putProblem [⟨[1, 2], 3, 4, 5, 6, 7, 8, 9⟩,
      ⟨[], 0, 0, 0, 0, 0, 0, 1⟩] ++ putLoad ⟨3, (4 : Nat)⟩)).toOption =
    some ([⟨[1, 2], 3, 4, 5, 6, 7, 8, 9⟩, ⟨[], 0, 0, 0, 0, 0, 0, 1⟩],
      [.label 3, .scalar 4]) := by decide +kernel

end DLB
