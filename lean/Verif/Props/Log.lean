import Verif.Model.Log
import Verif.Props.Balancer
import Mathlib.Tactic.Ring
import Mathlib.Tactic.FinCases
/-
C129: the log of the computing times.  C130: the printed state of the balancer.
-/
set_option autoImplicit false
set_option linter.unusedSectionVars false

namespace DLB

/-! ### Lemmas: reading what was written -/

theorem pySplit_spaces (k : Nat) (s : List Char) : pySplit [] (List.replicate k ' ' ++ s) = pySplit [] s := by
  induction k with
  | zero => rfl
  | succ k ih => rw [List.replicate_succ, List.cons_append, pySplit, if_pos (by decide), if_pos rfl, ih]

theorem pySplit_word : ∀ (w cur s : List Char), (∀ c ∈ w, isSpace c = false) → pySplit cur (w ++ s) = pySplit (cur ++ w) s
  | [], cur, s, _ => by simp
  | c :: w, cur, s, h => by
    have hc : isSpace c = false := h c (by simp)
    rw [List.cons_append, pySplit, if_neg (by rw [hc]; exact Bool.false_ne_true), pySplit_word w _ s (fun d hd => h d (by simp [hd])),
      List.append_assoc, List.singleton_append]

theorem pySplit_field {w : List Char} (hw : w ≠ []) (h : ∀ c ∈ w, isSpace c = false) {c : Char} (hc : isSpace c = true) (s : List Char) :
    pySplit [] (setw22 w ++ c :: s) = w :: pySplit [] s := by
  rw [setw22, List.append_assoc, pySplit_spaces, pySplit_word w [] _ h, List.nil_append, pySplit, if_pos hc, if_neg hw]

theorem pyLines_line : ∀ (l cur s : List Char), (∀ c ∈ l, c ≠ '\n') → pyLines cur (l ++ '\n' :: s) = (cur ++ l ++ ['\n']) :: pyLines [] s
  | [], cur, s, _ => by rw [List.nil_append, pyLines, if_pos rfl, List.append_nil]
  | c :: l, cur, s, h => by
    rw [List.cons_append, pyLines, if_neg (h c (by simp)), pyLines_line l _ s (fun d hd => h d (by simp [hd]))]
    simp

/-- How numbers are written: not as an empty text, and without white space. -/
def Writes {S : Type} (text : S → List Char) : Prop := ∀ s, text s ≠ [] ∧ ∀ c ∈ text s, isSpace c = false

theorem digits_writes (r : Nat) : Nat.toDigits 10 r ≠ [] ∧ ∀ c ∈ Nat.toDigits 10 r, isSpace c = false := by
  refine ⟨Nat.toDigits_ne_nil, fun c hc => ?_⟩
  have h := Nat.isDigit_of_mem_toDigits (by decide) (by decide) hc
  unfold isSpace
  simp only [Bool.or_eq_false_iff, decide_eq_false_iff_not]
  refine ⟨⟨⟨⟨⟨?_, ?_⟩, ?_⟩, ?_⟩, ?_⟩, ?_⟩ <;> (rintro rfl; revert h; decide)

theorem setw22_no_newline {w : List Char} (h : ∀ c ∈ w, isSpace c = false) : ∀ c ∈ setw22 w, c ≠ '\n' := by
  intro c hc
  rcases List.mem_append.1 hc with hc | hc
  · rw [List.eq_of_mem_replicate hc]; decide
  · rintro rfl
    have := h _ hc
    revert this; decide

section
variable {S : Type} [Zero S] [Add S] [Sub S]

/-- The seven columns of a line. -/
def columns (text : S → List Char) (userTime : S) (t : PhaseTimes S) (rank : Nat) : List (List Char) :=
  [text userTime, text t.getProblems, text t.updateState, text t.balance, text t.solveBuffer, text t.unbalance, Nat.toDigits 10 rank]

theorem pySplit_logLine {text : S → List Char} (h : Writes text) (userTime : S) (t : PhaseTimes S) (rank : Nat) :
    pySplit [] (logLine text userTime t rank) = columns text userTime t rank := by
  have f := fun s => pySplit_field (h s).1 (h s).2 (c := '\t') (by decide)
  have d := pySplit_field (digits_writes rank).1 (digits_writes rank).2 (c := '\n') (by decide) []
  rw [logLine, f, f, f, f, f, f, d]
  rfl

theorem logLine_newline {text : S → List Char} (h : Writes text) (userTime : S) (t : PhaseTimes S) (rank : Nat) :
    ∃ l, logLine text userTime t rank = l ++ ['\n'] ∧ ∀ c ∈ l, c ≠ '\n' := by
  refine ⟨setw22 (text userTime) ++ '\t' :: (setw22 (text t.getProblems) ++ '\t' :: (setw22 (text t.updateState) ++ '\t' ::
    (setw22 (text t.balance) ++ '\t' :: (setw22 (text t.solveBuffer) ++ '\t' :: (setw22 (text t.unbalance) ++ '\t' ::
      (setw22 (Nat.toDigits 10 rank))))))), by simp [logLine], ?_⟩
  have f := fun s => setw22_no_newline (h s).2
  have d := setw22_no_newline (digits_writes rank).2
  have tab : '\t' ≠ '\n' := by decide
  intro c hc
  simp only [List.mem_append, List.mem_cons] at hc
  rcases hc with hc | rfl | hc | rfl | hc | rfl | hc | rfl | hc | rfl | hc | rfl | hc
  all_goals first | exact tab | exact f _ c hc | exact d c hc

theorem pyLines_calls {text : S → List Char} (h : Writes text) (active : Bool) (rank : Nat) (calls : List (SolveCall S)) :
    (pyLines [] (calls.flatMap (logCall text active rank))).map (pySplit []) =
      (calls.filter (·.chemistry)).map fun c => columns text c.userTime (solveTimes active c.now c.durations) rank := by
  induction calls with
  | nil => rfl
  | cons c cs ih =>
    rw [List.flatMap_cons]
    by_cases hc : c.chemistry = true
    · have e : logCall text active rank c = logLine text c.userTime (solveTimes active c.now c.durations) rank := by simp [logCall, hc]
      obtain ⟨l, hl, hn⟩ := logLine_newline h c.userTime (solveTimes active c.now c.durations) rank
      rw [e, hl, List.append_assoc, List.singleton_append, pyLines_line l [] _ hn, List.nil_append, ← hl, List.map_cons, ih, pySplit_logLine h,
        List.filter_cons_of_pos hc, List.map_cons]
    · have hc' : c.chemistry = false := by simpa using hc
      have e : logCall text active rank c = [] := by simp [logCall, hc']
      rw [e, List.nil_append, ih, List.filter_cons_of_neg hc]

theorem pyLines_file (s : List Char) : (pyLines [] (logHeader ++ s)).drop 1 = pyLines [] s := by
  obtain ⟨l, hl, hn⟩ : ∃ l, logHeader = l ++ ['\n'] ∧ ∀ c ∈ l, c ≠ '\n' :=
    ⟨logHeader.dropLast, by decide +kernel, by decide +kernel⟩
  rw [hl, List.append_assoc, List.singleton_append, pyLines_line l [] s hn]
  rfl

theorem mapM_get {α β : Type} (f : α → List β) (i : Nat) (g : α → β) : ∀ l : List α, (∀ a ∈ l, (f a)[i]? = some (g a)) →
    l.mapM (fun a => (f a)[i]?) = some (l.map g)
  | [], _ => rfl
  | a :: l, h => by
    rw [List.mapM_cons, h a (by simp), mapM_get f i g l (fun b hb => h b (by simp [hb]))]
    rfl

end

/-! ### C129 -/

section
variable {K : Type} [Field K]

/-- What the columns of the log mean: the time of the simulation, and the time spent in each part of the call. -/
def spent (active : Bool) (c : SolveCall K) : Fin 6 → K :=
  ![c.userTime, c.durations.getProblems,
    if active then c.durations.updateState else 0,
    if active then c.durations.balance + c.durations.getRemaining else 0,
    if active then c.durations.solveList + c.durations.solveBuffer else c.durations.solveList,
    if active then c.durations.unbalance + c.durations.append else 0]

/-- **C129.** With `log` on, whatever the history of calls, the script that plots the log reads from the file of a rank, for every call with chemistry
on and in their order, the time of the simulation and the times spent in gathering the problems, planning, sending, solving and returning: the
column of each is the one in which it was written.  Parts that are not run with balancing off count as zero. -/
theorem C129_log_columns (text : K → List Char) (h : Writes text) (active : Bool) (rank : Nat) (calls : List (SolveCall K)) :
    ∃ file, cpuSolveFile text true active rank calls = some file ∧
      ∀ i : Fin 6, readColumn file i = some ((calls.filter (·.chemistry)).map fun c => text (spent active c i)) := by
  refine ⟨_, by rw [cpuSolveFile, if_pos rfl], fun i => ?_⟩
  rw [readColumn, pyLines_file]
  have key := pyLines_calls h active rank calls
  have e : (pyLines [] (calls.flatMap (logCall text active rank))).mapM (fun x => (pySplit [] x)[i.val]?) =
      ((pyLines [] (calls.flatMap (logCall text active rank))).map (pySplit [])).mapM (fun x => x[i.val]?) := by
    rw [List.mapM_map]; rfl
  rw [e, key, List.mapM_map]
  refine mapM_get (fun c : SolveCall K => columns text c.userTime (solveTimes active c.now c.durations) rank) i.val
    (fun c => text (spent active c i)) _ fun c _ => ?_
  cases active <;> fin_cases i <;> simp [columns, solveTimes, Timer.increment, Timer.run, spent] <;> congr 1 <;> ring

/-- **C129, all ranks.** If all ranks make calls with the same switches, all files have the same number of entries; without `log` there are none. -/
theorem C129_files_line_up (text : K → List Char) (h : Writes text) (active : Bool) (r s : Nat) (calls calls' : List (SolveCall K))
    (hc : calls.map (·.chemistry) = calls'.map (·.chemistry)) (i : Fin 6) (file file' : List Char) (col col' : List (List Char))
    (hf : cpuSolveFile text true active r calls = some file) (hf' : cpuSolveFile text true active s calls' = some file')
    (hcol : readColumn file i = some col) (hcol' : readColumn file' i = some col') :
    col.length = col'.length ∧ col.length = (calls.map (·.chemistry)).count true ∧ cpuSolveFile text false active r calls = none := by
  have len : ∀ l : List (SolveCall K), (l.filter (·.chemistry)).length = (l.map (·.chemistry)).count true := fun l => by
    induction l with
    | nil => rfl
    | cons a l ih => cases ha : a.chemistry <;> simp [ha, ih]
  obtain ⟨f1, h1, h2⟩ := C129_log_columns text h active r calls
  obtain ⟨f2, h3, h4⟩ := C129_log_columns text h active s calls'
  rw [h1] at hf
  rw [h3] at hf'
  cases hf
  cases hf'
  rw [h2 i] at hcol
  rw [h4 i] at hcol'
  cases hcol
  cases hcol'
  rw [List.length_map, List.length_map, len, len, hc]
  exact ⟨rfl, rfl, rfl⟩

end

/-- A case of C129: three calls, the second with chemistry off. -/
def loggedCalls : List (SolveCall ℚ) :=
  [⟨true, 1, 10, ⟨1, 2, 3, 4, 50, 60, 7, 8⟩⟩, ⟨false, 2, 200, ⟨1, 2, 3, 4, 50, 60, 7, 8⟩⟩, ⟨true, 3, 400, ⟨9, 2, 3, 4, 20, 30, 7, 8⟩⟩]

/-- Whole numbers in decimal. -/
def wholeText (q : ℚ) : List Char := Nat.toDigits 10 q.num.natAbs

example : Writes wholeText := fun _ => digits_writes _

example : (cpuSolveFile wholeText true true 3 loggedCalls).bind (readColumn · 4) = some ["110".toList, "50".toList] ∧
    (cpuSolveFile wholeText true false 3 loggedCalls).bind (readColumn · 4) = some ["50".toList, "20".toList] := by decide +kernel

/-! ### C130 -/

section
variable {S : Type} [Zero S] [Add S] [Sub S] [Mul S] [Div S] [Neg S] [NatCast S]
variable [LT S] [DecidableLT S] [LE S] [DecidableLE S] [Consts S]

/-- What a report says about a rank. -/
def Report.rank : Report → Nat
  | .receiver r _ _ => r
  | .sender r _ _ _ => r
  | .neither r _ => r

/-- The ranks to which a rank says it sends. -/
def Report.sendsTo : Report → List Nat
  | .sender _ ds _ _ => ds
  | _ => []

/-- The ranks from which a rank says it receives. -/
def Report.receivesFrom : Report → List Nat
  | .receiver _ ss _ => ss
  | _ => []

/-- The problems that a rank says it solves itself, and those it says it gives away. -/
def Report.kept : Report → Int
  | .receiver _ _ k => k
  | .sender _ _ _ k => k
  | .neither _ k => k

/-- The numbers of problems that a rank says it gives away, one for each destination. -/
def Report.given : Report → List Int
  | .sender _ _ cs _ => cs
  | _ => []

/-- **C130.** What the ranks print about a balancing step is complete and consistent: the messages name exactly the transfers that are made; a rank says
that it sends to another exactly if the other says that it receives from it; there is one number for each destination, and the
numbers add up to the problems of the rank. -/
theorem C130_printed_state {n : Nat} (hn : 0 < n) (sort : List (ChemistryLoad S) → List (ChemistryLoad S)) (hsort : ∀ l, (sort l).Perm l)
    (problems : Fin n → List (ChemistryProblem S)) :
    ∃ st, updateStates sort problems = .ok st ∧ ∀ r : Fin n,
      (printState r.val (st r)).rank = r.val ∧
      (printState r.val (st r)).sendsTo = (st r).destinations ∧
      (printState r.val (st r)).receivesFrom = (st r).sources ∧
      (printState r.val (st r)).given.length = (printState r.val (st r)).sendsTo.length ∧
      (printState r.val (st r)).given.sum + (printState r.val (st r)).kept = (problems r).length ∧
      0 ≤ (printState r.val (st r)).kept ∧
      ∀ s : Fin n, s.val ∈ (printState r.val (st r)).sendsTo ↔ r.val ∈ (printState s.val (st s)).receivesFrom := by
  obtain ⟨st, h1, h2⟩ := C02_never_sender_and_receiver hn sort hsort problems
  obtain ⟨st', h3, h4⟩ := C05_states_partition_problems hn sort hsort problems
  obtain ⟨st'', h5, h6⟩ := C01_senders_and_receivers_agree hn sort hsort problems
  rw [h1] at h3 h5
  cases h3
  cases h5
  have sends : ∀ r : Fin n, (printState r.val (st r)).sendsTo = (st r).destinations := fun r => by
    unfold printState
    rcases h2 r with h | h
    · rw [if_neg (by simp [h])]
      split
      · rfl
      · rename_i hd
        have : (st r).destinations = [] := by simpa using hd
        rw [this]; rfl
    · rw [h]
      split
      · rfl
      · rfl
  have recvs : ∀ r : Fin n, (printState r.val (st r)).receivesFrom = (st r).sources := fun r => by
    unfold printState
    split
    · rfl
    · rename_i hs
      have : (st r).sources = [] := by simpa using hs
      rw [this]
      split <;> rfl
  refine ⟨st, h1, fun r => ?_⟩
  obtain ⟨bs, own, hsp⟩ := h4 r
  have hk : (printState r.val (st r)).kept = (st r).nRemaining := by
    unfold printState
    split
    · rfl
    · split <;> rfl
  have hg : (printState r.val (st r)).given = (st r).nProblems := by
    have hlen : (st r).nProblems.length = (st r).destinations.length := by rw [hsp.counts, List.length_map, hsp.one_each]
    unfold printState
    rcases h2 r with h | h
    · rw [if_neg (by simp [h])]
      split
      · rfl
      · rename_i hd
        have : (st r).destinations = [] := by simpa using hd
        rw [this] at hlen
        rw [List.length_eq_zero_iff.1 hlen]; rfl
    · rw [h] at hlen ⊢
      rw [List.length_eq_zero_iff.1 hlen]
      split
      · rfl
      · rfl
  refine ⟨by unfold printState; split; rfl; split <;> rfl, sends r, recvs r, ?_, ?_, ?_, fun s => ?_⟩
  · rw [hg, sends, hsp.counts, List.length_map, hsp.one_each]
  · rw [hg, hk, hsp.nRemaining, hsp.counts]
    have : ∀ l : List (List (ChemistryProblem S)), (l.map fun b => (b.length : Int)).sum = (l.flatten.length : Int) := fun l => by
      induction l with
      | nil => rfl
      | cons a l ih => simp [ih]
    rw [this, ← hsp.partition, List.length_append]
    push_cast
    rfl
  · rw [hk, hsp.nRemaining]; exact Int.natCast_nonneg _
  · rw [sends, recvs, ← List.count_pos_iff, ← List.count_pos_iff, (h6 s r).1]

end

/-- A case of C130: of three ranks, rank 0 gives 3 problems to rank 2 and one to rank 1, and keeps one. -/
example : (updateStates Example.sort Example.problems).toOption.map (fun st => List.ofFn fun r : Fin 3 => printState r.val (st r)) =
    some [.sender 0 [2, 1] [3, 1] 1, .receiver 1 [0] 1, .receiver 2 [0] 1] := by decide +kernel

end DLB
