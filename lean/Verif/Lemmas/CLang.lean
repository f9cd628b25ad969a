import Verif.Model.CLang
/-
Straight-line programs: a static check for the absence of undefined behaviour, and a total semantics that
agrees with the actual one for programs passing the check.
-/
set_option autoImplicit false
set_option linter.unusedSectionVars false

namespace DLB

variable {S : Type}

section
variable [Add S] [Sub S] [Mul S] [Div S] [Neg S] [OfScientific S] [CMath S]

/-- Total evaluation. -/
def CExpr.evalT (τ : CLoc → S) : CExpr → S
  | .num m e => OfScientific.ofScientific m true e
  | .rd l => τ l
  | .neg a => - a.evalT τ
  | .add a b => a.evalT τ + b.evalT τ
  | .sub a b => a.evalT τ - b.evalT τ
  | .mul a b => a.evalT τ * b.evalT τ
  | .div a b => a.evalT τ / b.evalT τ
  | .exp a => CMath.exp (a.evalT τ)
  | .log a => CMath.log (a.evalT τ)
  | .log10 a => CMath.log10 (a.evalT τ)
  | .pow a b => CMath.pow (a.evalT τ) (b.evalT τ)
  | .fmax a b => CMath.fmax (a.evalT τ) (b.evalT τ)

/-- Total memory update. -/
def setT (τ : CLoc → S) (l : CLoc) (v : S) : CLoc → S := fun k => if k = l then v else τ k

variable [LE S] [DecidableLE S]

/-- Total execution of a statement. -/
def CStmt.execT (τ : CLoc → S) : CStmt → (CLoc → S)
  | .set l e => setT τ l (e.evalT τ)
  | .ite a b l e1 e2 => setT τ l (if a.evalT τ ≤ b.evalT τ then e1.evalT τ else e2.evalT τ)

/-- Total execution of a program. -/
def execT : List CStmt → (CLoc → S) → (CLoc → S)
  | [], τ => τ
  | s :: p, τ => execT p (s.execT τ)

theorem execT_append (p q : List CStmt) (τ : CLoc → S) :
    execT (p ++ q) τ = execT q (execT p τ) := by
  induction p generalizing τ with
  | nil => rfl
  | cons s p ih => exact ih _

end

/-- All locations read satisfy `d`. -/
def CExpr.reads (d : CLoc → Bool) : CExpr → Bool
  | .num _ _ => true
  | .rd l => d l
  | .neg a => a.reads d
  | .add a b => a.reads d && b.reads d
  | .sub a b => a.reads d && b.reads d
  | .mul a b => a.reads d && b.reads d
  | .div a b => a.reads d && b.reads d
  | .exp a => a.reads d
  | .log a => a.reads d
  | .log10 a => a.reads d
  | .pow a b => a.reads d && b.reads d
  | .fmax a b => a.reads d && b.reads d

/-- The location a statement assigns to. -/
def CStmt.target : CStmt → CLoc
  | .set l _ => l
  | .ite _ _ l _ _ => l

/-- All locations a statement may read satisfy `d`. -/
def CStmt.reads (d : CLoc → Bool) : CStmt → Bool
  | .set _ e => e.reads d
  | .ite a b _ e1 e2 => a.reads d && b.reads d && e1.reads d && e2.reads d

/-- Add to a list of locations, without duplicates. -/
def insertLoc (l : CLoc) (W : List CLoc) : List CLoc := if W.contains l then W else l :: W

/-- Every read is of an existing location that is an input (`inp`) or has been written before (`W`), every write is to
an existing location. -/
def safe (sz : CSizes) (inp : CLoc → Bool) : List CStmt → List CLoc → Bool
  | [], _ => true
  | s :: p, W =>
    s.reads (fun l => l.inRange sz && (inp l || W.contains l)) && s.target.inRange sz &&
      safe sz inp p (insertLoc s.target W)

/-- The locations written, in addition to `W`. -/
def written : List CStmt → List CLoc → List CLoc
  | [], W => W
  | s :: p, W => written p (insertLoc s.target W)

theorem mem_insertLoc {l k : CLoc} {W : List CLoc} : k ∈ insertLoc l W ↔ k = l ∨ k ∈ W := by
  unfold insertLoc
  split
  · rename_i h
    have : l ∈ W := by simpa using h
    constructor
    · exact Or.inr
    · rintro (rfl | h)
      · exact this
      · exact h
  · simp

theorem nodup_insertLoc {l : CLoc} {W : List CLoc} (h : W.Nodup) : (insertLoc l W).Nodup := by
  unfold insertLoc
  split
  · exact h
  · rename_i h'
    exact List.nodup_cons.2 ⟨by simpa using h', h⟩

theorem written_sub (p : List CStmt) (W : List CLoc) : ∀ l ∈ W, l ∈ written p W := by
  induction p generalizing W with
  | nil => intro l h; exact h
  | cons s p ih => intro l h; exact ih _ l (mem_insertLoc.2 (Or.inr h))

section
variable [Add S] [Sub S] [Mul S] [Div S] [Neg S] [OfScientific S] [CMath S]

theorem eval_agree {sz : CSizes} {σ : CMem S} {τ : CLoc → S} {d : CLoc → Bool}
    (hd : ∀ l, d l = true → l.inRange sz = true ∧ σ l = some (τ l)) (e : CExpr) (he : e.reads d = true) :
    e.eval sz σ = some (e.evalT τ) := by
  induction e with
  | num m e => rfl
  | rd l =>
    have := hd l he
    simp [CExpr.eval, CExpr.evalT, this.1, this.2]
  | neg a iha | exp a iha | log a iha | log10 a iha =>
    simp only [CExpr.reads] at he
    simp [CExpr.eval, CExpr.evalT, iha he]
  | add a b iha ihb | sub a b iha ihb | mul a b iha ihb | div a b iha ihb | pow a b iha ihb | fmax a b iha ihb =>
    simp only [CExpr.reads, Bool.and_eq_true] at he
    simp [CExpr.eval, CExpr.evalT, iha he.1, ihb he.2]

variable [LE S] [DecidableLE S]

/-- A program that passes the check has no undefined behaviour, and its result is that of the total semantics
on everything that was defined or has been written. -/
theorem exec_agree {sz : CSizes} {inp : CLoc → Bool} (p : List CStmt) (W : List CLoc) (σ : CMem S) (τ : CLoc → S)
    (hs : safe sz inp p W = true)
    (h : ∀ l, inp l = true ∨ l ∈ W → σ l = some (τ l)) :
    ∃ σ', execAll sz p σ = some σ' ∧
      ∀ l, inp l = true ∨ l ∈ written p W → σ' l = some (execT p τ l) := by
  induction p generalizing W σ τ with
  | nil => exact ⟨σ, rfl, h⟩
  | cons s p ih =>
    simp only [safe, Bool.and_eq_true] at hs
    obtain ⟨⟨hr, ht⟩, hp⟩ := hs
    have hd : ∀ l, (l.inRange sz && (inp l || W.contains l)) = true →
        l.inRange sz = true ∧ σ l = some (τ l) := by
      intro l hl
      simp only [Bool.and_eq_true, Bool.or_eq_true, List.contains_iff_mem] at hl
      exact ⟨hl.1, h l hl.2⟩
    have key : ∃ v, s.exec sz σ = some (fun k => if k = s.target then some v else σ k) ∧
        s.execT τ = setT τ s.target v := by
      cases s with
      | set l e =>
        refine ⟨e.evalT τ, ?_, rfl⟩
        simp only [CStmt.target] at ht
        simp only [CStmt.exec, CMem.write, ht, eval_agree hd e hr, if_true, bind, Option.bind_some]
        rfl
      | ite a b l e1 e2 =>
        simp only [CStmt.reads, Bool.and_eq_true] at hr
        obtain ⟨⟨⟨h1, h2⟩, h3⟩, h4⟩ := hr
        simp only [CStmt.target] at ht
        refine ⟨if a.evalT τ ≤ b.evalT τ then e1.evalT τ else e2.evalT τ, ?_, rfl⟩
        by_cases hc : a.evalT τ ≤ b.evalT τ <;>
        · simp only [CStmt.exec, CMem.write, ht, eval_agree hd a h1, eval_agree hd b h2,
            eval_agree hd e1 h3, eval_agree hd e2 h4, hc, if_true, if_false, bind, Option.bind_some]
          rfl
    obtain ⟨v, he, hT⟩ := key
    have h' : ∀ l, inp l = true ∨ l ∈ insertLoc s.target W →
        (fun k => if k = s.target then some v else σ k) l = some (s.execT τ l) := by
      intro l hl
      rw [hT]
      by_cases hk : l = s.target
      · simp [setT, hk]
      · simp only [setT, hk, if_false]
        refine h l ?_
        rcases hl with hl | hl
        · exact Or.inl hl
        · exact Or.inr ((mem_insertLoc.1 hl).resolve_left hk)
    obtain ⟨σ', hex, hag⟩ := ih _ _ _ hp h'
    exact ⟨σ', by simp [execAll, he, hex], hag⟩

end
end DLB
