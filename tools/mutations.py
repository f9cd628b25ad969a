"""The seeded bugs."""
MUTATIONS = []
def m(definition, module, old, new, claim, *breaks):
    MUTATIONS.append(dict(id=f"M{len(MUTATIONS)+1:03d}", definition=definition, module="Verif." + module, old=old, new=new,
                          claim=claim, breaks=list(breaks)))

LB = "Model.LoadBalancer"
m("planStep", LB, "stdMin (s.value - mean) (mean - r.value)", "stdMax (s.value - mean) (mean - r.value)",
  "transfers exceed the surplus of the sender or the deficit of the receiver", "C13", "C15")
m("planStep", LB, "stdMin (s.value - mean) (mean - r.value)", "stdMin (s.value - mean) (r.value - mean)",
  "operations have negative values / do not level", "C13")
m("planStep", LB, "⟨s.rank, r.rank, sendValue⟩", "⟨r.rank, s.rank, sendValue⟩",
  "underloaded ranks would send to overloaded ones", "C14")
m("planStep", LB, "if s.rank = me ∨ r.rank = me then", "if s.rank = me then",
  "receivers do not know their senders", "C01", "C18")
m("planStep", LB, "if s.rank = me ∨ r.rank = me then", "if s.rank = me ∨ r.rank = me + 1 then",
  "a rank keeps the operations of its neighbour", "C01", "C18")
m("planStep", LB, "{ l with value := l.value + sendValue }", "{ l with value := l.value }",
  "received work is not added to the receiver's load", "C12", "C13")
m("planStep", LB, "{ l with value := l.value - sendValue }", "{ l with value := l.value + sendValue }",
  "sent work is added to the sender's load", "C12", "C13")
m("planStep", LB, "if absS (s'.value - mean) < Consts.SMALL then", "if s'.value - mean < Consts.SMALL then",
  "absolute value dropped in the comparison (harmless in exact arithmetic where the sender never falls below the mean)", )
m("planStep", LB, "if absS (s'.value - mean) < Consts.SMALL then", "if Consts.SMALL < absS (s'.value - mean) then",
  "the wrong pointer moves: a sender with surplus left is skipped", "C13")
m("planStep", LB, "if st.sender = 0 then .error .ub\n    else .ok ⟨loads, st.sender - 1, st.receiver, operations⟩",
  "if st.sender ≤ 1 then .error .ub\n    else .ok ⟨loads, st.sender - 1, st.receiver, operations⟩",
  "moving the sender to the first position fails", "C04")
m("planStep", LB, ".ok ⟨loads, st.sender, st.receiver + 1, operations⟩", ".ok ⟨loads, st.sender - 1, st.receiver + 1, operations⟩",
  "both pointers move, they can cross and the loop never ends", "C04")
m("planStep", LB, ".ok ⟨loads, st.sender - 1, st.receiver, operations⟩", ".ok ⟨loads, st.sender - 1, st.receiver, st.operations⟩",
  "the operation is dropped when the sender is exhausted", "C13", "C18")
m("runPlan", LB, "else planLoop globalMean me fuel ⟨loads, loads.length - 1, 0, []⟩", "else planLoop globalMean me fuel ⟨loads, 0, 0, []⟩",
  "the loop never runs", "C13", "C04")
m("runPlan", LB, "let loads := sort loads\n  if loads.length = 0", "if loads.length = 0",
  "loads are not sorted", "C13", "C14")
m("getOperations", LB, "Consts.filterFrac * getMean loads < op.value", "op.value < Consts.filterFrac * getMean loads",
  "keeps the small operations and drops the big ones", "C14", "C19")
m("getOperations", LB, "decide (Consts.filterFrac * getMean loads < op.value)", "decide (Consts.filterFrac * getMean loads ≤ op.value)",
  "boundary: with zero mean, zero transfers are kept", "C17", "C14")
m("isSender", LB, "operations.all (fun op => op.src == rank)", "operations.any (fun op => op.src == rank)",
  "any instead of all (equivalent on reachable operation lists)", )
m("isSender", LB, "operations.all (fun op => op.src == rank)", "operations.all (fun op => op.dst == rank)",
  "receivers are classified as senders", "C02", "C01")
m("isSender", LB, "if operations.length = 0 then false\n  else", "if operations.length = 0 then true\n  else",
  "a rank without operations is a sender (harmless: empty lists)", "C02")
m("timesToProblemCounts", LB, "(decide (sum ≤ time), sum)) 0 problems", "(decide (sum < time), sum)) 0 problems",
  "boundary: a block that fits exactly is not filled", "C11")
m("timesToProblemCounts", LB, "(decide (sum ≤ time), sum)) 0 problems", "(decide (p.cpuTime ≤ time), sum)) 0 problems",
  "accumulated time is not compared, too many problems are sent", "C11", "C16")
m("timesToProblemCounts", LB, "timesToProblemCounts times (problems.drop count)", "timesToProblemCounts times problems",
  "the second block starts at the beginning again: counts exceed the list", "C05", "C06")
m("operationsToInfo", LB, "destinations := operations.map (·.dst)", "destinations := operations.map (·.src)",
  "a sender sends to itself", "C01", "C03")
m("operationsToInfo", LB, "sources := operations.map (·.src)", "sources := operations.map (·.dst)",
  "a receiver expects messages from itself", "C01", "C03")
m("operationsToInfo", LB, "nRemaining := problems.length - nProblems.foldl (· + ·) 0", "nRemaining := problems.length",
  "sent problems are solved locally too", "C05", "C06")
m("operationsToInfo", LB, "nRemaining := problems.length }", "nRemaining := 0 }",
  "receivers do not solve their own problems", "C05", "C06")
m("sendBufferAt", LB, "let start := (counts.take i).foldl (· + ·) 0", "let start := (counts.take (i + 1)).foldl (· + ·) 0",
  "blocks are shifted", "C05", "C06")
m("getRemaining", LB, "subList values st.nRemaining (values.length - st.nRemaining)", "subList values st.nRemaining 0",
  "the first instead of the last problems are kept: some are lost", "C05", "C06")
m("computeLoad", LB, "problems.foldl (fun sum p => sum + p.cpuTime) 0", "problems.foldl (fun sum p => p.cpuTime) 0",
  "load is the time of the last problem only", "C21")
m("getMean", LB, "/ (loads.length : S)", "/ ((loads.length + 1 : Nat) : S)",
  "mean divided by the wrong number", "C13", "C21")
m("getMin", LB, "if x.value < best.value then x else best", "if best.value < x.value then x else best",
  "getMin returns the maximum", "C21")
m("rankToLoadIdx", LB, "if l.rank = rank then .ok i else go (i + 1) ls", "if l.rank = rank then .ok i else go i ls",
  "index is always zero", "C21")
m("validState", LB, "if nProcs < st.sources.length then false", "if nProcs ≤ st.sources.length + 1 then false",
  "valid states are refused", "C04")
m("countWhile", LB, "| (true, st') => countWhile pred st' xs + 1", "| (true, _) => countWhile pred st xs + 1",
  "the accumulator is not updated", "C11")

W = "Model.World"
m("inboxFrom", W, "(out.filter (fun m => m.1 == r)).map (·.2)", "out.map (·.2)",
  "messages are delivered to everybody", "C06", "C07")
m("recvAll", W, "fun s' => if s' = s then ms else inbox s'", "inbox",
  "messages are not consumed (leftover messages are an error)", "C07")
m("unbalance", W, "sendRecv parRun (fun r i => getAt (values r) i)\n    (fun r => (st r).destinations) (fun r => (st r).sources)",
  "sendRecv parRun (fun r i => getAt (values r) i)\n    (fun r => (st r).sources) (fun r => (st r).destinations)",
  "solutions are sent in the wrong direction", "C07", "C08")
m("solveBalanced", W, "let ownSol ← allRanks (fun r => solveList M (clk r) 1 (split r).own)", "let ownSol ← allRanks (fun r => solveList M (clk r) 1 (problems r))",
  "sent problems are also solved at home and written twice", "C07")
m("solveBalanced", W, ".ok (fun r => incoming r ++ [ownSol r])", ".ok (fun r => incoming r)",
  "own solutions are lost", "C07", "C08", "C27")
m("solveBalanced", W, ".ok (fun r => incoming r ++ [ownSol r])", ".ok (fun r => [ownSol r] ++ incoming r)",
  "order of the blocks changed: not the original problem order", "C07")
m("solveWorld", W, "allRanks (fun r => updateReactionRates M (flow r).nCells (pr r).1 (incoming r))", "allRanks (fun r => updateReactionRates M (flow r).nCells (F r) (incoming r))",
  "the reference solution and the reference map are lost", "C27", "C24")
m("solveWorld", W, "else .ok (fun r => (F r, Consts.great))", "else .ok (fun r => (F r, 0))",
  "chemistry off returns time step zero", "C29")
m("solveWorldUniform", W, "foamMin (res r).2 (Consts.two * deltaT)", "(res r).2",
  "the limit of twice the time step is missing", "C28")
m("gatherLoads", W, "computeLoad r.val (problems r)", "computeLoad 0 (problems r)",
  "all loads claim to be of rank 0", "C01", "C03")

CM = "Model.ChemistryModel"
m("subStepLoop", CM, "subStepLoop integrate fuel r.p r.T r.c r.subDeltaT (timeLeft - r.deltaT)", "subStepLoop integrate fuel r.p r.T r.c r.subDeltaT timeLeft",
  "time left is not reduced", "C30")
m("subStepLoop", CM, "let r ← integrate p T c timeLeft dtChem", "let r ← integrate p T c dtChem timeLeft",
  "time step and sub-step swapped", "C30")
m("solveSingle", CM, "(x - x0) * problem.rhoi / problem.deltaT", "(x0 - x) * problem.rhoi / problem.deltaT",
  "sign of the rate", "C30")
m("solveSingle", CM, "(x - x0) * problem.rhoi / problem.deltaT", "(x - x0) / problem.deltaT",
  "density missing in the rate", "C30")
m("solveSingle", CM, "deltaTChem := foamMin dtChem M.deltaTChemMax", "deltaTChem := dtChem",
  "chemical time step not capped", "C30")
m("solveSingle", CM, "cellid := problem.cellid", "cellid := 0",
  "solutions carry the wrong cell id", "C30", "C07", "C27")
m("writeRR", CM, "let v ← getAt rr j", "let v ← getAt rr 0",
  "all species get the rate of the first", "C26", "C27")
m("updateReactionRate", CM, "foamMin solution.deltaTChem M.deltaTChemMax", "solution.deltaTChem",
  "written time step not capped", "C26")
m("updateList", CM, "let dtMin := foamMin s.deltaTChem dtMin", "let dtMin := s.deltaTChem",
  "the last instead of the smallest time step is returned", "C28")
m("updateList", CM, "let cpu ← writeAt nCells F.cpuTimes s.cellid s.cpuTime", "let cpu ← writeAt nCells F.cpuTimes 0 s.cpuTime",
  "CPU time written to the wrong cell", "C26")
m("updateReactionRates", CM, "updateBuffer M nCells F Consts.great solutions", "updateBuffer M nCells F 0 solutions",
  "minimum starts from zero", "C28")
m("cellProblem", CM, "deltaT := fl.deltaT celli", "deltaT := F.deltaTChem celli",
  "wrong time step in the problem", "C25")
m("cellProblem", CM, "Ti := fl.T celli\n    pi := fl.p celli", "Ti := fl.p celli\n    pi := fl.T celli",
  "temperature and pressure swapped", "C25")
m("cellProblem", CM, "rhoi := fl.rho celli", "rhoi := fl.rho 0",
  "density of cell 0 used for all cells", "C25")
m("classifyCells", CM, "classifyCells M fl F (celli + 1) m refMap solved (mapped ++ [problem])", "classifyCells M fl F (celli + 1) m refMap (solved ++ [problem]) (mapped ++ [problem])",
  "mapped cells are solved too", "C22", "C23")
m("classifyCells", CM, "let refMap ← writeAt fl.nCells refMap celli 1", "let refMap ← writeAt fl.nCells refMap celli 2",
  "mapped cells are marked as solved", "C24")
m("mapLoop", CM, "let rm ← writeAt nCells F.refMap problem.cellid 2\n      mapLoop M nCells refT refSol rest { F with refMap := rm } (solved ++ [problem])",
  "mapLoop M nCells refT refSol rest F (solved ++ [problem])",
  "cells refused for temperature keep the mark of mapped cells", "C24")
m("mapLoop", CM, "mapLoop M nCells refT refSol rest { F with refMap := rm } (solved ++ [problem])", "mapLoop M nCells refT refSol rest { F with refMap := rm } solved",
  "cells refused for temperature are not solved", "C22", "C27")
m("mapLoop", CM, "let F ← updateReactionRate M nCells F refSol problem.cellid", "let F ← updateReactionRate M nCells F refSol refSol.cellid",
  "the reference solution is written to the reference cell only", "C27")
m("mapLoop", CM, "let cpu ← writeAt nCells F.cpuTimes problem.cellid refSol.cpuTime\n      mapLoop M nCells refT refSol rest { F with cpuTimes := cpu } solved",
  "mapLoop M nCells refT refSol rest F solved",
  "CPU times of mapped cells are not updated (not part of any claim)", )
m("mapProblems", CM, "let rm ← writeAt nCells F.refMap refProblem.cellid 0", "let rm ← writeAt nCells F.refMap refProblem.cellid 1",
  "the reference cell is not marked", "C24")
m("mapProblems", CM, "mapLoop M nCells refProblem.Ti refSol mapped { F with refMap := rm } solved", "mapLoop M nCells refProblem.pi refSol mapped { F with refMap := rm } solved",
  "temperatures are compared with the reference pressure", "C23")
m("solveList", CM, "let ss ← solveList M clk (k + 1) ps\n    .ok (s :: ss)", "let ss ← solveList M clk (k + 1) ps\n    .ok (ss ++ [s])",
  "solutions in reverse order", "C07")

RM = "Model.RefMap"
m("mixFracAlpha", RM, "Consts.half * ((e.H.getD 0 : Nat) : S)", "Consts.two * ((e.H.getD 0 : Nat) : S)",
  "wrong weight of hydrogen in Bilger's coupling function", "C34")
m("mixFracAlpha", RM, "(-Consts.one) * ((e.O.getD 0 : Nat) : S)", "Consts.one * ((e.O.getD 0 : Nat) : S)",
  "sign of oxygen", "C34")
m("mixFracInitialize", RM, "let b0 ← dotAcc 0 alpha Yox\n    let b1 ← dotAcc 0 alpha Yfu", "let b0 ← dotAcc 0 alpha Yfu\n    let b1 ← dotAcc 0 alpha Yox",
  "fuel and oxidiser swapped", "C32")
m("mixFracInitialize", RM, "if Consts.SMALL < absS (Consts.one - YoxTot) ∨ Consts.SMALL < absS (Consts.one - YfuTot) then", "if Consts.SMALL < absS (Consts.one - YoxTot) ∧ Consts.SMALL < absS (Consts.one - YfuTot) then",
  "one ill-formed stream is accepted", "C35")
m("mixFracInitialize", RM, "Consts.SMALL < absS (Consts.one - YoxTot) ∨", "Consts.SMALL < Consts.one - YoxTot ∨",
  "a stream that sums to more than one is accepted", "C35")
m("massFractionToMixtureFraction", RM, ".ok ((beta - m.beta0) / (m.beta1 - m.beta0))", ".ok ((beta - m.beta0) / m.beta1)",
  "not normalised", "C32", "C34")
m("stoichMixtureFraction", RM, "(0 - m.beta0) / (m.beta1 - m.beta0)", "m.beta0 / (m.beta1 - m.beta0)",
  "sign of the stoichiometric mixture fraction", "C34")
m("shouldMap", RM, "decide (Z < m.Ztolerance)", "decide (Z ≤ m.Ztolerance)",
  "boundary of the tolerance", "C23")
m("shouldMap", RM, "if m.active then do", "if !m.active then do",
  "mapping when switched off", "C23", "C25")
m("temperatureWithinRange", RM, "absS (Ti - Tref) < m.Ttolerance", "Ti - Tref < m.Ttolerance",
  "much colder cells are mapped", "C23")
m("refMapperConstruct", RM, "⟨true, d.tolerance.getD Consts.Ztol, d.deltaT.getD Consts.vGreat, mf⟩", "⟨true, d.deltaT.getD Consts.Ztol, d.tolerance.getD Consts.vGreat, mf⟩",
  "tolerances swapped", "C35")

SE = "Model.Serial"
m("getProblem", SE, "let (Ti, ts) ← getScalar ts\n  let (pi, ts) ← getScalar ts", "let (pi, ts) ← getScalar ts\n  let (Ti, ts) ← getScalar ts",
  "fields read in another order than written", "C20")
m("putSolution", SE, "[.scalar s.deltaTChem, .scalar s.cpuTime, .label s.cellid, .scalar s.rhoi]", "[.scalar s.deltaTChem, .scalar s.cpuTime, .label s.cellid]",
  "density is not written", "C20")
m("putScalars", SE, "(if xs.length = 0 then [] else [.block xs])", "[.block xs]",
  "empty lists are written with a block that is not read", "C20")
m("getList", SE, "| .endList :: ts => .ok (xs, ts)\n    | _ => .error .fatal", "| _ :: ts => .ok (xs, ts)\n    | _ => .error .fatal",
  "the end of a list is not checked", "C20")

MP = "Model.Mpi"
m("localStep", MP, "if a.posted then none\n    else some { a with posted := true, posts := a.posts ++ [.msgs a.outbox], outbox := [] }", "if a.posted then none\n    else some { a with posted := true, posts := a.posts ++ [.msgs a.outbox] }",
  "the send buffer is not cleared: messages are sent again in the next exchange", "C10")
m("balancedProg", MP, "(fun i => getAt guestSol i) st.destinations st.sources fun incoming =>", "(fun i => getAt guestSol i) st.sources st.destinations fun incoming =>",
  "a rank waits for messages nobody sends", "C10")
m("stepProg", MP, "localCompute (solveList M clk 1 pr.2) fun sol =>", "localCompute (solveList M clk 0 pr.2) fun sol =>",
  "clock readings differ from the functional semantics", "C10")
m("recvLoop", MP, "recvLoop get ss (fun xs => k (x :: xs))", "recvLoop get ss (fun xs => k (xs ++ [x]))",
  "messages in reverse order", "C10")

OS = "Model.OdeSolver"
m("normalizeError", OS, "foamMax (absS (y0 i)) (absS (y i))", "foamMin (absS (y0 i)) (absS (y i))",
  "minimum instead of maximum in the scale", "C43")
m("normalizeError", OS, "foamMax maxErr (absS (err i) / tol)", "maxErr + absS (err i) / tol",
  "sum instead of maximum", "C43")
m("driverPrepare", OS, "{ step with last := true, dxTry := xEnd - x }", "{ step with last := true, dxTry := xEnd }",
  "the last step is not truncated to the end", "C41")
m("driverPrepare", OS, "{ step with last := true, dxTry := xEnd - x }", "{ step with dxTry := xEnd - x }",
  "the last step is not marked", "C42")
m("driverLoop", OS, "if 0 ≤ (x - xEnd) * (xEnd - xStart) then", "if 0 < (x - xEnd) * (xEnd - xStart) then",
  "boundary: reaching the end exactly is not recognised", "C41")
m("driverLoop", OS, "if 0 < nStep ∧ step.last = true then dxTry0 else step.dxTry", "step.dxTry",
  "the truncated step is suggested", "C42")
m("driverLoop", OS, "| 0, _, _, _, _, _ => .error .fatal", "| 0, nStep, scratch, x, y, step => .ok ⟨scratch, y, step.dxTry, x, nStep⟩",
  "running out of steps goes unnoticed", "C41")
m("driverLoop", OS, "first := false\n", "first := true\n",
  "every step is treated as the first", "C61")
m("SolverSizes.resizeBase", OS, "if s.maxN < nEqns then .error .fatal", "if s.maxN ≤ nEqns then .error .fatal",
  "boundary: resizing to the maximum is refused", "C44")
m("SolverSizes.resize", OS, "yTemp := resizeField s.n s.yTemp\n", "",
  "one field is not resized", "C44")

PJ = "Model.PyJac"
m("modelComposition", PJ, "foamMax (y (speciesPos i)) 0\n  let csum := (List.finRange m).foldl (fun s i => s + clipped i) 0\n  fun i => if h : i.val < m then clipped ⟨i.val, h⟩ else (1.0 : S) - csum",
  "y (speciesPos i)\n  let csum := (List.finRange m).foldl (fun s i => s + clipped i) 0\n  fun i => if h : i.val < m then clipped ⟨i.val, h⟩ else (1.0 : S) - csum",
  "species are not clipped", "C39")
m("pyJacDerivatives", PJ, "fun i => if h : i.val < m + 1 then dy ⟨i.val, h⟩ else 0", "fun i => if h : i.val < m + 1 then dy ⟨i.val, h⟩ else y 0",
  "derivative of the pressure is not zero", "C39", "C40")
m("pyJacJacobian", PJ, "jac (j.val * (m + 1) + i.val)", "jac (i.val * (m + 1) + j.val)",
  "Jacobian transposed", "C39")
m("pyJacJacobian", PJ, "if i.val < m + 1 ∧ j.val < m + 1 then", "if i.val < m + 1 then",
  "last column is not zero", "C39")
m("pyJacQdot", PJ, "q - h i * rr i", "q + h i * rr i",
  "sign of the heat release", "C56")
m("pyJacConstruct", PJ, "if m + 1 = L.nsp then .ok h else .error .fatal", "if m + 1 ≤ L.nsp then .ok h else .error .fatal",
  "a larger mechanism is accepted", "C57")
m("packPyJac", PJ, "if h : i.val < m + 1 then c ⟨i.val - 1, by omega⟩ else p", "if h : i.val < m + 1 then c ⟨i.val, by omega⟩ else p",
  "species are shifted by one", "C38")
m("unpackPyJac", PJ, "(y (pressurePos m), y 0,", "(y 0, y (pressurePos m),",
  "temperature and pressure swapped", "C38", "C40")
m("unpackPyJac", PJ, "let clipped : Fin m → S := fun i => foamMax 0 (y (speciesPos i))\n  let csum := (List.finRange m).foldl (fun s i => s + clipped i) 0\n  (y", "let clipped : Fin m → S := fun i => foamMax 0 (y (speciesPos i))\n  let csum := (List.finRange m).foldl (fun s i => s + y (speciesPos i)) 0\n  (y",
  "the sum is of the values before clipping", "C36")

SX = "Model.Seulex"
m("nSeq", SX, "| i + 2 => 2 * nSeq i", "| i + 2 => nSeq i + 2",
  "wrong step sequence", "C51")
m("coeff", SX, "((nSeq k : Nat) : S) / ((nSeq l : Nat) : S) - ((1 : Nat) : S)", "((nSeq l : Nat) : S) / ((nSeq k : Nat) : S) - ((1 : Nat) : S)",
  "extrapolation coefficients inverted", "C49", "C51")
m("systemArray", SX, "-dfdy i j + ((1 : Nat) : S) / dx else -dfdy i j", "dfdy i j + ((1 : Nat) : S) / dx else dfdy i j",
  "sign of the Jacobian", "C50")
m("systemArray", SX, "let j : Fin (n + 1) := ⟨pos / (n + 1), Nat.div_lt_of_lt_mul h⟩\n    let i : Fin (n + 1) := ⟨pos % (n + 1), Nat.mod_lt _ (Nat.succ_pos n)⟩",
  "let i : Fin (n + 1) := ⟨pos / (n + 1), Nat.div_lt_of_lt_mul h⟩\n    let j : Fin (n + 1) := ⟨pos % (n + 1), Nat.mod_lt _ (Nat.succ_pos n)⟩",
  "matrix passed row-major", "C50")
m("temperatureBad", SX, "decide (T ≤ ((200 : Nat) : S)) ||", "decide (T ≤ ((0 : Nat) : S)) ||",
  "temperatures below 200 are accepted", "C59", "C47")
m("seulLoop", SX, "let dy := E.linearSolve a (E.derivatives xnew yTemp)\n        seulLoop", "let dy := E.linearSolve a (E.derivatives x0 yTemp)\n        seulLoop",
  "sub-steps evaluate the derivative at the initial time", "C50")
m("seulLoop", SX, "| 0, _, _, yTemp, dy, theta => ⟨true, theta, fun i => yTemp i + dy i⟩", "| 0, _, _, yTemp, dy, theta => ⟨true, theta, fun i => yTemp i⟩",
  "the last increment is not added", "C50")
m("seul", SX, "seulLoop E a x0 dx k scale (nSeq k - 1) 1 xnew y0 dy theta", "seulLoop E a x0 dx k scale (nSeq k) 1 xnew y0 dy theta",
  "one sub-step too many", "C50")
m("extrapolateRows", SX, "fun i => row i + c * (row i - below i)", "fun i => row i + c * (below i - row i)",
  "sign in the extrapolation", "C49")
m("extrapolate", SX, "let table ← extrapolateRows k (k - 1) table", "let table ← extrapolateRows k k table",
  "reads an undefined coefficient", "C45", "C49")
m("errorEstimate", SX, "sqr ((y i - row0 i) / scale i)", "sqr ((y i - row0 i) * scale i)",
  "error not scaled by the tolerance", "C59")
m("column", SX, "if r.ok = false then .ok (st, .reject (absS dx * (0.5 : S)))", "if r.ok = false then .ok (st, .reject (absS dx))",
  "the step is not halved after a failed attempt", "C47")
m("decideOrder", SX, "if (1.0 : S) < err then rejectWithOrder st st.kTarg else .ok (st, .accept)", ".ok (st, .accept)",
  "the last column is accepted whatever the error", "C59")
m("decideOrder", SX, "if (first || last) && decide (err ≤ (1.0 : S)) then .ok (st, .accept)", "if (first || last) then .ok (st, .accept)",
  "first and last steps are accepted whatever the error", "C59")
m("optimalOrder", SX, "else if t0 < (0.9 : S) * t1 then .ok (min (k + 1) (kMaxx - 1))", "else if t0 < (0.9 : S) * t1 then .ok (k + 1)",
  "order can leave the table", "C45")
m("attempts", SX, "let dx := if forward then dxNew else -dxNew", "let dx := dxNew",
  "integration backwards in time goes forward", "C60")
m("attempts", SX, "let theta := if jacUpdated then a.st.theta else (2.0 : S) * E.jacRedo", "let theta := a.st.theta",
  "the Jacobian is not updated after a rejection", "C58")
m("seulexSolve", SX, "let theta := if step.first || step.prevReject then (2 : Nat) * E.jacRedo else scr.theta", "let theta := if step.prevReject then (2 : Nat) * E.jacRedo else scr.theta",
  "the first step may use a Jacobian of the previous cell", "C46", "C58")
m("seulexSolve", SX, "let kTarg := if step.first then initialOrder E else scr.kTarg", "let kTarg := scr.kTarg",
  "the first step starts with the order of the previous cell", "C46")
m("seulexSolve", SX, "x + r.dx, r.st.y,", "x + dx, r.st.y,",
  "x advances by the requested step instead of the one taken", "C47")
m("seulexSolve", SX, "dxTry := if step.forward then dxNew else -dxNew", "dxTry := dxNew",
  "suggested step of a backward integration points forward", "C60")

MM = "Model.Mechanism"
m("callDydt", MM, "let σr ← M.callRxnRates (y 0) pres conc", "let σr ← M.callRxnRates pres (y 0) conc",
  "temperature and pressure swapped in the call", "C67")
m("specLoc", MM, "if s + 1 = nsp then .var .dyN else .arr .spRates s", "if s = nsp then .var .dyN else .arr .spRates s",
  "the last species' rate is looked for in the array", "C62")

# bugs in the sources of the mechanism libraries, seeded in their translation: `start` begins the line edited
import pathlib
def ml(definition, module, start, old, new, claim, *breaks):
    text = (pathlib.Path(__file__).resolve().parent.parent / "lean/Verif" / (module.replace(".", "/") + ".lean")).read_text()
    lines = [l for l in text.split("\n") if l.startswith(start)]
    assert len(lines) == 1 and old in lines[0], (module, start, len(lines))
    m(definition, module, lines[0], lines[0].replace(old, new, 1), claim, *breaks)

ml("rate3 (drm19)", "Mech.Drm19Rates", "  .set (.arr .fwd 3)", ".C 2", ".C 3", "reaction 3 consumes the wrong species", "C63", "C83")
ml("rate3 (drm19)", "Mech.Drm19Rates", "  .set (.var .kf) (.num 80000000000 0)", "80000000000", "8000000000", "rate coefficient too small by a factor of ten", "C80", "C83")
ml("presMod1 (drm19)", "Mech.Drm19PresMod", "  .set (.arr .presMod 1)", "(.mul (.num 5 0) (.rd (.arr .C 3)))", "(.mul (.num 6 0) (.rd (.arr .C 3)))",
   "wrong third body efficiency", "C64")
m("specRates (drm19)", "Mech.Drm19Spec", ".set (.arr .spRates 3) (.sub (.rd (.arr .spRates 3)) (.sub (.rd (.arr .fwd 14)) (.rd (.arr .rev 14))))",
  ".set (.arr .spRates 3) (.add (.rd (.arr .spRates 3)) (.sub (.rd (.arr .fwd 14)) (.rd (.arr .rev 14))))", "a reactant is produced", "C62", "C52", "C53")
ml("evalConc (drm19)", "Mech.Drm19Thermo", "  .set (.arr .C 20) (.mul (.mul (.rd (.var .rho)) (.rd (.var .yN)))", "35697100110375433", "36697100110375433", "wrong molecular weight of nitrogen", "C65")
m("evalH (drm19)", "Mech.Drm19Thermo", ".ite (.rd (.var .T)) (.num 1000 0) (.arr .h 0) (.mul (.num 41244826576978785 13) (.add (.neg (.num 91793517299999996 14))",
  ".ite (.rd (.var .T)) (.num 1000 0) (.arr .h 0) (.mul (.num 41244826576978785 13) (.add (.num 91793517299999996 14)", "sign of the formation enthalpy of hydrogen below 1000 K", "C75")
ml("dydtRest (drm19)", "Mech.Drm19Thermo", "  .set (.arr .dy 0)", "(.neg (.num 1 0))", "(.num 1 0)", "exothermic reactions cool the gas", "C67", "C83")
ml("dydtRest (drm19)", "Mech.Drm19Thermo", "  .set (.arr .dy 2)", "10079400000000001 16", "20158800000000001 16", "rate of H with the weight of H2", "C67", "C53")
m("applyMask (drm19)", "Mech.Drm19Thermo", "def applyMask : List CStmt := [\n  .set (.arr .y 0) (.rd (.arr .temp 0)),\n  .set (.arr .y 1) (.rd (.arr .temp 1))",
  "def applyMask : List CStmt := [\n  .set (.arr .y 0) (.rd (.arr .temp 0)),\n  .set (.arr .y 1) (.rd (.arr .temp 2))", "species swapped by the mask", "C55")
ml("laws (drm19)", "Mech.Drm19Laws", "  .simple ⟨(500000000000000000, 0), (-1, 0), (0, 0)⟩,", "(-1, 0)", "(1, 0)",
   "the library differs from chem.cti in the exponent of the temperature", "C80", "C83", "C85")
m("nasa (drm19)", "Mech.Drm19Nasa", "⟨(1000, 0), [(234433112, 8), (798052075, 11)", "⟨(1000, 0), [(234433112, 8), (799052075, 11)",
  "the library differs from chem.cti in a coefficient of the heat capacity", "C75")
m("foamNasa (drm19)", "Mech.Drm19Nasa", "⟨(1000, 0), [(280811858794504, 14)", "⟨(1000, 0), [(290811858794504, 14)",
  "the flow solver has another heat capacity than the chemistry", "C79")
m("jacobT0 (drm19)", "Mech.Drm19Jacob0", "(.div (.mul (.neg (.rd (.arr .presMod 0))) (.sub (.rd (.arr .fwd 0)) (.rd (.arr .rev 0)))) (.rd (.var .T)))",
  "(.div (.mul (.rd (.arr .presMod 0)) (.sub (.rd (.arr .fwd 0)) (.rd (.arr .rev 0)))) (.rd (.var .T)))", "sign of the derivative of the third bodies by the temperature", "C85", "C88")
m("jacobT0 (drm19)", "Mech.Drm19Jacob0", "  .set (.arr .jac 2) (.mul (.neg (.rd (.var .jTemp))) (.num 10079400000000001 16)),\n  .set (.arr .jac 3) (.mul (.neg (.rd (.var .jTemp))) (.num 159994 4)),\n  .set (.arr .jac 5) (.mul (.rd (.var .jTemp)) (.num 17007339999999999 15))]\n\n/-- utilities/mechanisms/drm19/lib/src/jacobs/jacob_0.c:24-96 -/",
  "  .set (.arr .jac 2) (.mul (.neg (.rd (.var .jTemp))) (.num 10079400000000001 16)),\n  .set (.arr .jac 4) (.mul (.neg (.rd (.var .jTemp))) (.num 159994 4)),\n  .set (.arr .jac 5) (.mul (.rd (.var .jTemp)) (.num 17007339999999999 15))]\n\n/-- utilities/mechanisms/drm19/lib/src/jacobs/jacob_0.c:24-96 -/",
  "the derivative goes to the row of another species", "C85")
m("jacobS0 (drm19)", "Mech.Drm19Jacob0", "(.rd (.arr .presMod 0))) (.sub (.mul (.num 3 0) (.rd (.arr .fwd 0))) (.mul (.num 2 0) (.rd (.arr .rev 0))))",
  "(.rd (.arr .presMod 0))) (.sub (.mul (.num 2 0) (.rd (.arr .fwd 0))) (.mul (.num 2 0) (.rd (.arr .rev 0))))", "the third body is forgotten in the order of the reaction", "C86")
ml("jacobEnd0 (drm19)", "Mech.Drm19Jacob3", "  .set (.arr .jac 43)", "(.add (.rd (.arr .jac 43))", "(.sub (.rd (.arr .jac 43))", "sign of the derivative of the density", "C86")
ml("jacobEnd0 (drm19)", "Mech.Drm19Jacob3", "  .set (.arr .jac 21) (.neg (.mul (.rd (.arr .h 0))", "(.arr .cp 20)", "(.arr .cp 19)", "the wrong heat capacity in the temperature row", "C87")
ml("jacobCpAvg (drm19)", "Mech.Drm19Jacob", "  .set (.arr .jac 0) (.num 0 0)", ".num 0 0", ".num 1 0", "the first entry starts from another value (harmless: it is overwritten later)")
m("callJacob", "Model.Jacobian", "jacobPartMem withM (some T) (some pres) (σd (.var .m))", "jacobPartMem withM (some pres) (some T) (σd (.var .m))",
  "temperature and pressure swapped in the calls of the parts", "C85", "C91", "C92")
m("callJacob", "Model.Jacobian", "    | .arr .h i => σh (.arr .h i)\n    | .arr .cp i => σcp (.arr .cp i)\n    | .arr .jac i => σa (.arr .jac i)",
  "    | .arr .h i => σcp (.arr .cp i)\n    | .arr .cp i => σcp (.arr .cp i)\n    | .arr .jac i => σa (.arr .jac i)", "heat capacities passed for enthalpies", "C87")
m("jacobT200 (gri30)", "Mech.Gri30Jacob5", "(.sub (.sub (.add (.rd (.arr .dBdT 1)) (.rd (.arr .dBdT 38))) (.rd (.arr .dBdT 2))) (.rd (.arr .dBdT 32)",
  "(.sub (.sub (.add (.rd (.arr .dBdT 1)) (.rd (.arr .dBdT 37))) (.rd (.arr .dBdT 2))) (.rd (.arr .dBdT 32)", "the equilibrium constant is that of another species", "C91")
m("jacobT82 (yao)", "Mech.YaoJacob2", "(.sub (.mul (.rd (.arr .fwd 82)) (.neg (.num 1 0))) (.mul (.rd (.arr .rev 82)) (.add (.neg (.num 1 0))",
  "(.sub (.mul (.rd (.arr .fwd 82)) (.neg (.num 1 0))) (.mul (.rd (.arr .rev 82)) (.add (.neg (.num 2 0))", "wrong order of the reverse reaction", "C92")
ml("evalU (yao)", "Mech.YaoMore", "  .ite (.rd (.var .T)) (.num 1000 0) (.arr .h 18)", "(.sub (.num 80868109399999999 17) (.num 1 0))", "(.num 80868109399999999 17)", "the inner energy is the enthalpy", "C89")
ml("sparseMultiplier (drm19)", "Mech.Drm19More", "  .set (.arr .dy 0)", "(.mul (.rd (.arr .jac 21)) (.rd (.arr .y 1)))", "(.mul (.rd (.arr .jac 1)) (.rd (.arr .y 1)))", "row and column swapped in one term", "C90")
ml("evalConcRho (gri30)", "Mech.Gri30More", "  .set (.arr .C 24)", "(.arr .y 24)", "(.arr .y 23)", "concentration of the wrong species", "C89")
ml("jacobEnd (yao)", "Mech.YaoJacob", "  .set (.arr .jac 0) (.div", "(.mul (.mul (.rd (.arr .jac 52)) (.rd (.arr .h 51)))", "(.mul (.mul (.rd (.arr .jac 51)) (.rd (.arr .h 51)))",
   "the heat of one species is weighted with the derivative of another in the first entry", "C93")
ml("jacobEnd (gri30)", "Mech.Gri30Jacob", "  .set (.arr .jac 0) (.div", "(.rd (.arr .cp 51))", "(.rd (.arr .cp 50))", "the heat capacity of another species in the first entry", "C94")

# floating-point arithmetic
RD = "Model.Rounded"
m("Consts (Fl F)", RD, "filterFrac := Fl.of F (1 / 100)", "filterFrac := Fl.of F (1 / 10)", "transfers of up to ten percent of the mean are dropped", "C105")
m("Consts (Fl F)", RD, "filterFrac := Fl.of F (1 / 100)", "filterFrac := Fl.of F (1 / 1000)", "transfers of less than a percent are kept", "C96")
m("Consts (Fl F)", RD, "SMALL := Fl.of F (1 / 10 ^ 15)", "SMALL := Fl.of F (1 / 10 ^ 10)", "senders are left with far too much load", "C95")
m("quantumExp", "Model.Binary64", "Int.log 2 |x| - 52", "Int.log 2 |x| - 51", "one bit less than a double has", "C95", "C99")
m("quantumExp", "Model.Binary64", "(-1074)", "(-1022)", "no gradual underflow", "C95", "C99")
m("roundEven", "Model.Binary64", "else if 1 / 2 < y - ⌊y⌋ then ⌊y⌋ + 1", "else if 1 / 2 < y - ⌊y⌋ then ⌊y⌋", "truncation instead of rounding", "C95", "C99")
m("massFractionToMixtureFraction", "Model.RefMap", ".ok ((beta - m.beta0) / (m.beta1 - m.beta0))", ".ok (beta / (m.beta1 - m.beta0) - m.beta0 / (m.beta1 - m.beta0))",
  "the same number in exact arithmetic, but with rounding the streams are not exactly at zero and one", "C103")
m("mixFracInitialize", "Model.RefMap", "Consts.SMALL < absS (Consts.one - YoxTot)", "0 < absS (Consts.one - YoxTot)", "rounding of the decimals of a stream is not tolerated", "C104")
m("unpackPyJac", "Model.PyJac", "(1.0 : S) - csum)", "foamMax 0 (1.0 - csum))", "the last mass fraction is clipped: the sum can exceed one", "C36", "C101")
m("driverPrepare", "Model.OdeSolver", "dxTry := xEnd - x }", "dxTry := (xEnd - x) + (xEnd - x) }", "the last step runs past the end", "C41", "C100")
m("planStep", LB, "if absS (s'.value - mean) < Consts.SMALL then", "if ¬ 0 < absS (s'.value - mean) then",
  "exact comparison (harmless: a sender that gives all its surplus is left with exactly the mean, also with rounding)")

# state of a rank that new processes do not have
m("solveSingle", CM, "    problem.deltaTChem problem.deltaT\n  if", "    problem.cpuTime problem.deltaT\n  if", "the first sub-step is the CPU time of the cell: results depend on the clocks and on restarts", "C27", "C106", "C107")
m("writeRR", CM, "let row ← writeAt nCells (RR j) i v", "let row ← writeAt nCells (RR j) i (RR j i + v)", "rates are added to those of the last step", "C27", "C106", "C107")
m("updateReactionRate", CM, "foamMin solution.deltaTChem M.deltaTChemMax)", "foamMin solution.deltaTChem (F.cpuTimes i))", "the chemical time step is limited by the CPU time", "C27", "C107")
m("classifyCells", CM, "      let refMap ← writeAt fl.nCells refMap celli 2\n      classifyCells M fl F (celli + 1) m refMap (solved ++ [problem]) mapped",
  "      classifyCells M fl F (celli + 1) m refMap (solved ++ [problem]) mapped", "cells that are no longer mapped keep the mark of earlier steps", "C24", "C107")
m("mapProblems", CM, "mapLoop M nCells refProblem.Ti refSol mapped { F with refMap := rm } solved", "mapLoop M nCells refProblem.Ti refSol mapped { F with refMap := rm, deltaTChem := fun _ => refSol.deltaTChem } solved",
  "the time step of the reference cell is given to all cells before they are solved (harmless: every cell is written afterwards)")

# crashes and failures
m("sendRecvProg", "Model.Mpi", "  if parRun then\n    sendLoop", "  if parRun && !(sources.isEmpty && destinations.isEmpty) then\n    sendLoop",
  "ranks with nothing to exchange skip the collective operation: they finish without the others, or meet another collective", "C10", "C108")
m("balancedProg", "Model.Mpi", "  sendRecvProg parRun (putList putSolution)", "  sendRecvProg false (putList putSolution)",
  "solutions are not sent back: a rank finishes although its guests were not solved", "C10", "C108")
m("stepProg", "Model.Mpi", "      localCompute (solveList M clk 1 pr.2) fun sol =>\n        localCompute", "      localCompute (solveList M clk 0 pr.2) fun sol =>\n        localCompute",
  "without balancing the clock is read one time too early", "C10")

# reactions of the tutorial
YT = "Mech.YaoTutorial"
m("tutorial", YT, "⟨[1, 8], [3, 2], true, .arrhenius ⟨(97560000000, 0), (0, 0), (74685, 1)⟩⟩", "⟨[1, 8], [3, 2], false, .arrhenius ⟨(97560000000, 0), (0, 0), (74685, 1)⟩⟩",
  "a reversible reaction of the tutorial is irreversible", "C109")
m("tutorial", YT, "⟨[1, 8], [3, 2], true, .arrhenius ⟨(97560000000, 0), (0, 0), (74685, 1)⟩⟩", "⟨[1, 8], [3, 2], true, .arrhenius ⟨(97560000000000, 0), (0, 0), (74685, 1)⟩⟩",
  "a pre-exponential factor in cm^3/mol/s", "C109")
m("tutorial", YT, "⟨[1, 8], [3, 2], true, .arrhenius ⟨(97560000000, 0), (0, 0), (74685, 1)⟩⟩", "⟨[1, 8], [3, 2], true, .arrhenius ⟨(97560000000, 0), (0, 0), (74585, 1)⟩⟩",
  "an activation temperature 10 K too low", "C109")
m("FoamReaction.reducedPressure", "Spec.FoamReaction", "k0.coefficient T * DLB.thirdBody nsp eff C / kInf.coefficient T", "kInf.coefficient T * DLB.thirdBody nsp eff C / k0.coefficient T",
  "the limits of low and high pressure are swapped", "C109")

# mixture fraction as a conserved scalar
FD = "Model.FoamDict"
m("Package.mixFracDict", FD, 'some ⟨some (D.foamCount "C" s), some (D.foamCount "H" s), some (D.foamCount "O" s)⟩', 'some ⟨some (D.foamCount "H" s), some (D.foamCount "C" s), some (D.foamCount "O" s)⟩',
  "carbon and hydrogen are swapped when the elements are read: reactions change the mixture fraction", "C110", "C111")
m("Package.foamWeight", FD, "((D.foamWeights.getD s (0, 0)).1 : K)", "((D.foamWeights.getD (s + 1) (0, 0)).1 : K)",
  "weights of the neighbouring species", "C110", "C111")
m("tutorialRefmapping", FD, 'some (77 / 100) else if s = "O2" then some (23 / 100)', 'some (77 / 100) else if s = "O2" then some (22 / 100)',
  "the oxidiser stream does not sum to one", "C111")
m("tutorialRefmapping", FD, "tolerance := some (1 / 10 ^ 4)", "tolerance := some (1 / 10)", "a tolerance of 0.1", "C111")
m("tutorialRefmapping", FD, "active := some true", "active := none", "mapping is off", "C111")

# second law
ml("rate0 (drm19)", "Mech.Drm19Rates", "  .set (.arr .rev 0)", "(.div (.mul (.rd (.arr .C 4)) (.rd (.var .kf))) (.rd (.var .Kc)))", "(.mul (.mul (.rd (.arr .C 4)) (.rd (.var .kf))) (.rd (.var .Kc)))",
  "the reverse rate is multiplied with the equilibrium constant", "C81", "C83", "C112")

# evenness
m("timesToProblemCounts", LB, "(decide (sum ≤ time), sum)) 0 problems", "(decide (sum ≤ time), sum)) time problems",
  "accumulation starts at the agreed time: nothing is ever sent", "C11", "C113")
m("getOperations", LB, "decide (Consts.filterFrac * getMean loads < op.value)", "decide (getMean loads < op.value)",
  "transfers below the whole mean are dropped", "C19", "C113")

# accuracy of the integration
m("seul", SX, "let dx := dxTot / ((nSeq k : Nat) : S)", "let dx := dxTot / ((nSeq k + 1 : Nat) : S)",
  "sub-steps do not add up to the step", "C50", "C115", "C116")
m("extrapolate", SX, "fun i => row i + c * (row i - y i))", "fun i => row i + c * (y i - row i))",
  "sign in the last extrapolation", "C49", "C116")
m("coeff", SX, "((nSeq l : Nat) : S) - ((1 : Nat) : S)))", "((nSeq l : Nat) : S) + ((1 : Nat) : S)))",
  "extrapolation coefficients with the wrong sign", "C49", "C116")
m("systemArray", SX, "-dfdy i j + ((1 : Nat) : S) / dx else", "-dfdy i j + ((2 : Nat) : S) / dx else",
  "increments half as large", "C50", "C115")
m("seulLoop", SX, "let yTemp := fun i => yTemp i + dy i\n    let xnew := xnew + dx", "let xnew := xnew + dx",
  "increments of the sub-steps are not added", "C50", "C115")
m("seul", SX, "let dy := E.linearSolve a (E.derivatives xnew y0)", "let dy := E.linearSolve a (E.derivatives x0 y0)",
  "the first sub-step evaluates the derivative at the initial time", "C50")
m("stabilityTheta", SX, "let dy := E.linearSolve a (fun i => dydx i - dy i / dx)", "let dy := E.linearSolve a (fun i => dydx i - dy i * dx)",
  "the stability check compares with the wrong increment: small steps can be rejected", "C48", "C121")
m("errorEstimate", SX, "sqr ((y i - row0 i) / scale i)) 0 /\n    ((n + 1 : Nat) : S))", "sqr (y i / scale i)) 0 /\n    ((n + 1 : Nat) : S))",
  "the error estimate does not vanish with the step: attempts need not end", "C48", "C121")
m("seulexSolve", SX, "x + r.dx, r.st.y,", "x + r.dx, y,",
  "the state is not updated", "C115", "C117")
m("pyJacDerivatives", PJ, "if h : i.val < m + 1 then dy ⟨i.val, h⟩ else 0", "if h : i.val < m + 1 then dy ⟨i.val, h⟩ else dy 0",
  "the pressure changes with the temperature", "C39", "C118", "C120")
m("pyJacDerivatives", PJ, "let dy := L.dydt (y (pressurePos m)) (toPyJac (y 0) (modelComposition y))", "let dy := L.dydt (y 0) (toPyJac (y (pressurePos m)) (modelComposition y))",
  "temperature and pressure swapped in the call of the library", "C38", "C88", "C118")
m("driverPrepare", OS, "if 0 < (x + step.dxTry - xEnd) * (x + step.dxTry - xStart) then", "if 0 < (x + step.dxTry - xEnd) * (x + step.dxTry) then",
  "wrong test for the last step (harmless from 0, as in the pyJac integration)", "C42")

# theorems tightened after random edits survived
m("subList", "Model.Basic", "start + size ≤ xs.length then", "start ≤ xs.length then", "slices may reach past the end", "C122")
m("sendBufferAt", LB, "let start := (counts.take i).foldl (· + ·) 0", "let start := (counts.take (i + 1)).foldl (· + ·) 0",
  "blocks start at the end of the block", "C04", "C122")
m("readAt", "Model.Basic", "if i < n then .ok (f i) else .error .ub", "if i ≤ n then .ok (f i) else .error .ub", "reads past the end are defined", "C122")
m("writeAt", "Model.Basic", "if i < n then .ok (fun k => if k = i then v else f k) else .error .ub", "if i ≤ n then .ok (fun k => if k = i then v else f k) else .error .ub",
  "writes past the end are defined", "C122")
m("getRemaining", LB, "subList values st.nRemaining (values.length - st.nRemaining)", "subList values st.nRemaining 0",
  "the first problems are kept, which are sent too", "C04", "C122")
m("validState", LB, "else if nProcs < st.destinations.length then false", "else if nProcs ≤ st.destinations.length then false",
  "a state with as many destinations as ranks is not valid", "C04")
m("odeOriginalSolve", "Model.PyJac", "else if i.val = N then T else p", "else if i.val = N then p else T", "pressure and temperature swapped for the original layout", "C38")
m("refMapperConstruct", "Model.RefMap", ".ok ⟨true, d.tolerance.getD", ".ok ⟨false, d.tolerance.getD", "the mapper is never active", "C35")
m("StepState.init", "Model.OdeSolver", "  last := false", "  last := true", "the first step counts as the last", "C42")
# growth of the steps
m("nextStep", SX, ".ok (kopt, d * cpu m / cpu k)", ".ok (kopt, d * cpu k / cpu m)", "the step shrinks when the order rises", "C123")
m("nextStep", SX, "foamMin (absS dx) d)\n  else if kopt ≤ k then do\n    let d ← readAt iMaxx st.dxOpt kopt", "foamMin (absS dx) d)\n  else if kopt ≤ k then do\n    let d ← readAt iMaxx st.dxOpt (kopt - 2)",
  "the next step is taken from the wrong column, possibly a left-over", "C123")
m("optimalOrder", SX, "then k - 2 else k - 1", "then k - 2 else k - 2", "the order can drop to zero, for which no step was computed", "C123")
m("optimalStep", SX, "((0.93 : S) / MathOps.pow (err / (0.8 : S)) expo)", "((0.93 : S) * MathOps.pow (err / (0.8 : S)) expo)",
  "small errors give small steps", "C59", "C123")
# log and messages
LG = "Model.Log"
m("printState", LG, "if 0 < st.sources.length then .receiver", "if 1 < st.sources.length then .receiver", "a receiver from one rank prints as if it were not one", "C130")
m("printState", LG, ".sender rank st.destinations st.nProblems st.nRemaining", ".sender rank st.destinations st.nProblems.tail st.nRemaining", "a count is missing", "C130")
m("solveTimes", LG, "    let (_, t) := t.increment\n    let t := t.run d.solveList\n    let t := t.run d.solveBuffer\n    let (tSolveBuffer, t) := t.increment",
  "    let t := t.run d.solveList\n    let (_, t) := t.increment\n    let t := t.run d.solveBuffer\n    let (tSolveBuffer, t) := t.increment", "the time for the own problems is not counted", "C129")
m("solveTimes", LG, "⟨tGetProblems, 0, 0, tSolveBuffer, 0⟩", "⟨tGetProblems, 0, tSolveBuffer, 0, 0⟩", "without balancing the time is logged in the wrong column", "C129")
m("logLine", LG, "(setw22 (text t.balance) ++ '\\t' :: (setw22 (text t.solveBuffer)", "(setw22 (text t.solveBuffer) ++ '\\t' :: (setw22 (text t.balance)", "columns swapped", "C129")
m("logCall", LG, "if !c.chemistry then [] else", "if c.chemistry then [] else", "lines for the calls without chemistry", "C129")
m("readColumn", LG, "(pyLines [] file).drop 1", "(pyLines [] file).drop 2", "the first entry is skipped", "C129")
# validation test
VA = "Model.Validation"
m("fractionBasis", VA, "List.zipWith (fun x w => x * w / mw) X0 W", "List.zipWith (fun x w => x / w * mw) X0 W", "weights used the wrong way round", "C131")
m("fractionBasis", VA, "let Y0 := given.map (· / mTot)", "let Y0 := given", "mass fractions are not normalised", "C131")
m("fractionBasis", VA, "let mw := Consts.one / invW", "let mw := invW", "mean weight inverted", "C131")
m("relativeError", VA, "absS (input - reference) / absS reference", "(input - reference) / absS reference", "values far below the reference pass", "C131")
m("psrStatus", VA, "|| !Hcheck1b || !Tcheck", "|| !Hcheck1b", "a wrong temperature passes", "C131")
# second order
m("extrapolate", SX, ".ok (table, fun i => row i + c * (row i - y i))", ".ok (table, fun i => row i)", "the last row is not extrapolated: first order only", "C49", "C116", "C132")
m("seulLoop", SX, "let xnew := xnew + dx", "let xnew := xnew", "all sub-steps take the equations at the same time", "C50", "C116", "C132")
# scripts and registration
TS = "Model.TestScript"
m("checkMismatch", TS, "reportIf 1 .mismatchPassed", "reportIf 0 .mismatchPassed", "a mechanism of another size has to be accepted", "C133")
m("runTests", TS, "rmFile thermoOrig (cpFile thermoOrig thermoFile (checkDynamic", "rmFile thermoOrig (cpFile thermoFile thermoOrig (checkDynamic", "the dictionary stays changed", "C133")
m("runInto", TS, "status := r.2.2 }", "status := 0 }", "the status of the program is lost", "C133")
m("checkDynamic", TS, "(foamDictionary edit thermoFile (cpFile thermoOrig thermoFile s))", "(foamDictionary edit thermoFile s)", "dynamic compilation tested with the ill-defined dictionary", "C133")
RG = "Model.Registration"
m("libraryEntries", RG, ' ++ solverFile gases liquids "ode_pyJac"', "", "the pyJac solver is not registered", "C134")
m("solverFile", RG, "gases.flatMap (makeDLBSolvers solver) ++ liquids", "gases.flatMap (makeDLBSolvers solver) ++ gases", "gases registered twice, liquids not at all", "C134")
m("templateModels", RG, 'then ["chemistryModel", "loadBalancedChemistryModel"]', 'then ["chemistryModel"]', "loadBalanced not offered by generated code", "C134")
m("templateHeader", RG, 'else if cppValue (method ++ "ChemistryModelCppTest") = cppValue "loadBalanced_pyJacChemistryModelCppTest" then method ++ "ChemistryModel.H"', 'else if cppValue (method ++ "ChemistryModelCppTest") = cppValue "loadBalanced_pyJacChemistryModelCppTest" then method ++ ".H"', "wrong header for the pyJac model", "C134")
m("psrEnthalpy", VA, "h0 + (0 + Qdot / rho * deltaT)", "h0 + (0 + Qdot * rho * deltaT)", "heat release multiplied with the density", "C135", "C138")
m("psrEnthalpy", VA, "h0 + (0 + Qdot / rho * deltaT)", "h0 + (0 + Qdot / rho)", "heat release not multiplied with the time step", "C135", "C138")
m("pyJacQdot", "Model.PyJac", "(fun q i => q - h i * rr i) 0", "(fun q i => q + h i * rr i) 0", "sign of the heat release", "C56", "C135")
# simulations of many time steps
ST = "Model.Stateful"
m("solveSingleW", ST, "(x - x0) * problem.rhoi / problem.deltaT) c problem.c", "(x - x0) * problem.rhoi / problem.deltaTChem) c problem.c",
  "reaction rates of the stateful model divided by the chemical time step", "C136", "C137")
m("solveSingleW", ST, "deltaTChem := foamMin dtChem M.base.deltaTChemMax\n", "deltaTChem := foamMin dtChem M.base.deltaTChemMax / 2\n",
  "the chemical time step handed on halves in every time step, until it is too short for the number of steps allowed", "C136", "C137")
m("updateReactionRate", "Model.ChemistryModel", "(foamMin solution.deltaTChem M.deltaTChemMax)\n  .ok { F with RR := RR, deltaTChem := dt }", "(foamMin solution.deltaTChem M.deltaTChemMax)\n  .ok { F with RR := RR }",
  "the chemical time step is not written back", "C26")
m("driverLoop", OS, "then dxTry0 else step.dxTry\n      .ok", "then step.dxTry - step.dxTry else step.dxTry\n      .ok", "a next step of zero is handed on", "C42", "C136")
m("psrEnthalpy", VA, "h0 + (0 + Qdot / rho * deltaT)", "h0 - (0 + Qdot / rho * deltaT)", "heat release taken from the flow", "C135", "C138")
# selection of the integrator
SE = "Model.OdeSelection"
m("odeSolverConstruct", SE, "relTol := fun _ => dict.relTol.getD 1e-4", "relTol := fun _ => dict.absTol.getD 1e-4", "relative tolerance read from the wrong entry", "C139")
m("odeSolverConstruct", SE, "relTol := fun _ => dict.relTol.getD 1e-4", "relTol := fun i => if i.val + 1 < N then dict.relTol.getD 1e-4 else 1e-4", "the last equation keeps the default tolerance", "C139")
m("odeSolverNew", SE, "else .error .fatal", 'else odeSolverConstruct "seulex_LAPACK" N dict', "unknown integrators replaced silently", "C139")
m("odeSolverTable", SE, '"seulex_LAPACK" :: foam', "foam", "the integrator is not registered", "C139")
m("toLabel", SE, "let t := MathOps.toInt x", "let t := MathOps.toInt x + 1", "number of steps rounded up", "C139")
m("odePyJacConstruct", SE, "| none => .error .fatal\n  | some dict => odeSolverNew", "| none => odeSolverNew table nEqns { solver := some \"seulex_LAPACK\" }\n  | some dict => odeSolverNew", "a missing sub-dictionary is not an error", "C139")
m("odeSolverConstruct", SE, "((10000 : Nat) : S)", "((1000 : Nat) : S)", "other default number of steps", "C139")
CD = "Model.CaseDict"
m("balancerConstruct", CD, "d.active.getD true, d.log.getD false", "d.log.getD true, d.active.getD false", "switches of balancing and log swapped", "C140")
m("balancerConstruct", CD, "d.active.getD true", "d.active.getD false", "load balancing off by default", "C140")
m("mapperConstruct", CD, "| none => .error .fatal\n  | some d => refMapperConstruct d", "| none => .ok ⟨false, Consts.Ztol, Consts.vGreat, ⟨[], 0, 0⟩⟩\n  | some d => refMapperConstruct d", "mapping off without its dictionary instead of an error", "C140")
m("caseConstruct", CD, "let h ← pyJacConstruct L P.chemistry", "let h : Vec S (m + 1) := L.evalH (298.15 : S)", "library of another size accepted", "C140")
m("caseConstruct", CD, "P.maxChemicalTimeStep.getD Consts.great", "P.initialChemicalTimeStep", "initial time step taken as the maximum", "C140")
m("CaseSettings.model", CD, "c.integrator.absTol c.integrator.relTol fuel", "c.integrator.absTol (fun i => if c.active then c.integrator.relTol i else c.integrator.absTol i) fuel", "tolerances depend on the load balancer", "C140")
m("CaseSettings.startFields", CD, "deltaTChem _ := c.initialDeltaT", "deltaTChem _ := if c.log then 0 else c.initialDeltaT", "first time step depends on the log", "C140")
m("CaseSettings.model", CD, "fuel c.integrator.maxSteps.toNat", "fuel (c.integrator.maxSteps.toNat - c.integrator.maxSteps.toNat)", "the number of steps is lost between dictionary and integrator", "C141")
m("CaseSettings.startFields", CD, "deltaTChem _ := c.initialDeltaT", "deltaTChem _ := 0", "the initial chemical time step is not taken up", "C141")
m("caseConstruct", CD, "let o ← odePyJacConstruct table (m + 2) P.odeCoeffs", "let o ← odePyJacConstruct table (m + 2) (P.odeCoeffs.map fun d => { d with relTol := d.maxSteps })", "relative tolerance read from another entry", "C140")
m("mapProblems", CM, "let refSol ← solveSingle M (clk 0) refProblem", "let refSol ← solveSingle M (clk 0) { refProblem with rhoi := 1 }", "rates of mapped cells without the density", "C142", "C27")
m("mapProblems", CM, "let refSol ← solveSingle M (clk 0) refProblem", "let refSol ← solveSingle M (clk 0) { refProblem with Ti := refProblem.pi, pi := refProblem.Ti }", "pressure and temperature of the reference cell swapped", "C142", "C27")
m("mapLoop", CM, "let F ← updateReactionRate M nCells F refSol problem.cellid", "let F ← updateReactionRate M nCells F { refSol with rr := refSol.rr.map fun x => x * problem.rhoi / refSol.rhoi } problem.cellid", "rates scaled by the density of the mapped cell: not the rates of the reference cell", "C142", "C27")
SR = "Model.Serial"
m("getScalars", SR, "if xs.length = n then .ok (xs, ts) else .error .fatal", "if n ≤ xs.length then .ok (xs.take n, ts) else .error .fatal", "a block longer than its size is cut off silently", "C20")
m("getList", SR, "let (xs, ts) ← getMany get n ts\n    match ts with", "let (xs, ts) ← getMany get n ts\n    let ts := ts.dropWhile (fun t => match t with | .scalar _ => true | _ => false)\n    match ts with", "scalars left over at the end of a list are skipped", "C20")
m("getLabel", SR, "  | .label n :: ts => .ok (n, ts)\n  | _ => .error .fatal", "  | .label n :: ts => .ok (n, ts)\n  | .beginList :: .label n :: .endList :: ts => .ok (n, ts)\n  | _ => .error .fatal", "labels in brackets accepted", "C20")
