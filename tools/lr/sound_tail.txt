
/-! ## The check -/

/-- the row of shifts and gotos has every shift of the tables -/
def shiftsOK (s : Nat) : Bool :=
  allBelow (fun t => match action s t with
    | .shift n => (match find (row moveTab s) t with | some n' => Nat.beq n n' | none => false)
    | .reduce r => (match find (row redTab s) r with | some m => Nat.testBit m t | none => false) || Nat.beq t 0
    | _ => true) 64

/-- and every goto in it is a goto of the tables -/
def movesOK (s : Nat) : List (Nat × Nat) → Bool
  | [] => true
  | (x, n) :: l => (bif Nat.blt x 64 then true else Nat.beq (gotoN s (x - 64)) n) && movesOK s l

/-- which of the right-hand sides start with a class that includes class `a` -/
def colMask (sup : Nat) : List Nat → Nat
  | [] => 0
  | x :: xs => bif Nat.testBit sup x then Nat.lor 1 (Nat.shiftLeft (colMask sup xs) 1) else Nat.shiftLeft (colMask sup xs) 1

/-- add a pair to a list unless it is there -/
def ins (c m : Nat) : List (Nat × Nat) → List (Nat × Nat)
  | [] => [(c, m)]
  | (c', m') :: l => bif Nat.beq c c' && Nat.beq m m' then (c', m') :: l else (c', m') :: ins c m l

/-- tokens that can come first in class `a` or, if it is empty, after it -/
def startMask (a m : Nat) : Nat := bif nullable a then Nat.lor (nthN firstTab (a - 64)) m else nthN firstTab (a - 64)

/-- from a configuration (productions that still fit, possible next tokens), over the labels `l` that refine nonterminal `x` -/
def overLabels (x : Nat) (col : List Nat) (cm pm : Nat) : List (Nat × Nat) → List (Nat × Nat) → List (Nat × Nat)
  | [], acc => acc
  | (a, m) :: l, acc =>
    overLabels x col cm pm l
      (bif Nat.beq (nthN baseTab (a - 64)) x then
        bif Nat.beq (Nat.land pm (startMask a m)) 0 then acc else ins (Nat.land cm (colMask (nthN supTab (a - 64)) col)) m acc
      else acc)

def overConfigs (x : Nat) (col : List Nat) (lab : List (Nat × Nat)) : List (Nat × Nat) → List (Nat × Nat) → List (Nat × Nat)
  | [], acc => acc
  | (cm, pm) :: l, acc => overConfigs x col lab l (overLabels x col cm pm lab acc)

/-- after token `k` any token can come -/
def overToken (k : Nat) : List (Nat × Nat) → List (Nat × Nat) → List (Nat × Nat)
  | [], acc => acc
  | (cm, pm) :: l, acc => overToken k l (bif Nat.testBit pm k then ins cm allMask acc else acc)

/-- some production that fits has a label with all the tokens -/
def endOne (m : Nat) (lab : List (Nat × Nat)) : Nat → List Nat → Bool
  | _, [] => false
  | cm, l :: ls => (bif Nat.testBit cm 0 then subOpt m (find lab l) else false) || endOne m lab (Nat.shiftRight cm 1) ls

def endAll (rm : Nat) (lab : List (Nat × Nat)) (ls : List Nat) : List (Nat × Nat) → Bool
  | [] => true
  | (cm, pm) :: l => (bif Nat.beq (Nat.land pm rm) 0 then true else endOne (Nat.land pm rm) lab cm ls) && endAll rm lab ls l

def heads : List (List Nat) → List Nat
  | [] => []
  | [] :: l => 0 :: heads l
  | (x :: _) :: l => x :: heads l

def tails : List (List Nat) → List (List Nat)
  | [] => []
  | [] :: l => [] :: tails l
  | (_ :: xs) :: l => xs :: tails l

/-- Walk from state `s` (with its rows) along the symbols of production `r`: wherever the tables reduce it, one of the refined productions fits the
labels on the way, and its class is a label of the first state, whose row is `lab0`. -/
def walkOK (r : Nat) (lab0 : List (Nat × Nat)) (ls : List Nat) : List Nat → Nat → List (Nat × Nat) → List (List Nat) → List (Nat × Nat) → Bool
  | [], s, _, _, cfgs => (match find (row redTab s) r with | none => true | some rm => endAll rm lab0 ls cfgs)
  | x :: xs, s, lab, rests, cfgs =>
    match (bif Nat.blt x 64 then overToken x cfgs [] else overConfigs (x - 64) (heads rests) lab cfgs []) with
    | [] => true
    | cfgs' => match find (row moveTab s) x with
      | none => Nat.blt x 64
      | some n => walkOK r lab0 ls xs n (row labTab n) (tails rests) cfgs'

def checkRules (s : Nat) (lab : List (Nat × Nat)) : List (Nat × List Nat × List Nat × List (List Nat)) → Bool
  | [] => true
  | (r, xs, ls, rests) :: l => walkOK r lab ls xs s lab rests [(allProds, allMask)] && checkRules s lab l

/-- every class in a row of classes is included in a class of the row, or the class itself -/
def supOK (a : Nat) : Nat → List Nat → Bool
  | _, [] => true
  | before, b :: l => (Nat.beq a b || fcode.any (fun p => Nat.beq p.1 b && Nat.beq p.2.1 0 && (match p.2.2 with | [c] => Nat.testBit before c | _ => false))) &&
      supOK a (Nat.lor before (Nat.shiftLeft 1 b)) l

def maskOf : List Nat → Nat
  | [] => 0
  | b :: l => Nat.lor (Nat.shiftLeft 1 b) (maskOf l)

theorem check_shifts : allBelow shiftsOK 267 = true := by decide +kernel

theorem check_moves : allBelow (fun s => movesOK s (row moveTab s)) 267 = true := by decide +kernel

theorem check_sup : allBelow (fun i => supOK (64 + i) 0 (rowN supList i) && Nat.beq (maskOf (rowN supList i)) (nthN supTab i)) 86 = true := by decide +kernel

/-- rule `r` is production `r` of parse.y, and its refinements are refined productions -/
def ruleOK (q : Nat × List Nat × List Nat × List (List Nat)) : Bool :=
  (match production q.1 with
    | none => false
    | some (_, rhs) => decide (rhs.map (fun x => match x with | .t k => tokNum k | .n a => 64 + ntNum a) = q.2.1)) &&
  Nat.beq q.2.2.1.length q.2.2.2.length && (q.2.2.1.zip q.2.2.2).all (fun p => fcode.contains (p.1, q.1, p.2))

theorem check_ruleTab : ruleTab.all ruleOK = true := by decide +kernel

theorem check_ruleNums : ruleTab.map (·.1) = (List.range 148).map (· + 1) := by decide +kernel

set_option maxRecDepth 100000 in
theorem check_walk : allBelow (fun s => checkRules s (row labTab s) ruleTab) 267 = true := by decide +kernel

theorem check_file : find (row labTab 0) (fntNum .file) = some allMask := by decide +kernel

/-- the numbers of the classes in the productions -/
theorem check_classes : fine.all (fun p => decide (classTab[fntNum p.1 - 64]? = some p.1) &&
    p.2.2.all (fun x => match x with | .t _ => true | .n a => decide (classTab[fntNum a - 64]? = some a) && Nat.blt 63 (fntNum a))) = true := by decide +kernel

/-- the base of a class -/
theorem check_base : fine.all (fun p => decide (nthN baseTab (fntNum p.1 - 64) = ntNum p.1.base)) = true := by decide +kernel

end Verif.Parser
