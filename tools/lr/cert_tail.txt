
/-! ## The check -/

/-- value for a key -/
def find : List (Nat × Nat) → Nat → Option Nat
  | [], _ => none
  | (a, b) :: l, k => bif Nat.beq a k then some b else find l k

/-- row of a table -/
def row : List (List (Nat × Nat)) → Nat → List (Nat × Nat)
  | [], _ => []
  | r :: _, 0 => r
  | _ :: l, n + 1 => row l n

def sub (m m' : Nat) : Bool := Nat.beq (Nat.land m m') m

def subOpt (m : Nat) : Option Nat → Bool
  | none => false
  | some m' => sub m m'

def nthN : List Nat → Nat → Nat
  | [], _ => 0
  | a :: _, 0 => a
  | _ :: l, n + 1 => nthN l n

def nullable (x : Nat) : Bool := Nat.testBit nullTab (x - 64)

/-- tokens that can come first in the symbols followed by one of `la` -/
def firstSeq : List Nat → Nat → Nat
  | [], la => la
  | x :: xs, la =>
    bif Nat.blt x 64 then Nat.shiftLeft 1 x
    else bif nullable x then Nat.lor (nthN firstTab (x - 64)) (firstSeq xs la)
    else nthN firstTab (x - 64)

/-- goto of the tables for a nonterminal number -/
def gotoN (s nt : Nat) : Nat :=
  let g := (look yyPgo nt).toNat
  let j := g + s + 1
  if 1052 ≤ j then (look yyAct g).toNat
  else
    let st := (look yyAct j).toNat
    if look yyChk st = -(nt : Int) then st else (look yyAct g).toNat

/-- the item `(i, d)` with next tokens `la`, in a state with the given rows -/
def itemOK (tr cl rd : List (Nat × Nat)) (i r : Nat) (rest : List Nat) (d la : Nat) : Bool :=
  match rest with
  | [] => bif Nat.beq r 0 then true else subOpt la (find rd r)
  | x :: xs =>
    let next (y : Nat) : Bool := match find tr y with
      | none => false
      | some s' => subOpt la (find (row kernTab s') (16 * i + (d + 1)))
    bif Nat.blt x 64 then bif Nat.beq r 0 then false else next x
    else (subOpt (firstSeq xs la) (find cl x)) && (bif Nat.beq r 0 then xs.isEmpty else next (64 + nthN baseTab (x - 64)))

/-- all productions, from number `i` on, of the class with number `a`, at the start -/
def closOK (tr cl rd : List (Nat × Nat)) (a la : Nat) : Nat → List (Nat × Nat × List Nat) → Bool
  | _, [] => true
  | i, (l, r, rhs) :: ps => (bif Nat.beq l a then itemOK tr cl rd i r rhs 0 la else true) && closOK tr cl rd a la (i + 1) ps

def nthP : List (Nat × Nat × List Nat) → Nat → Nat × Nat × List Nat
  | [], _ => (0, 0, [])
  | p :: _, 0 => p
  | _ :: l, n + 1 => nthP l n

def dropN : Nat → List Nat → List Nat
  | 0, l => l
  | _, [] => []
  | n + 1, _ :: l => dropN n l

def kernOK (tr cl rd : List (Nat × Nat)) : List (Nat × Nat) → Bool
  | [] => true
  | (k, la) :: l =>
    let p := nthP fcode (k / 16)
    Nat.blt 0 (k % 16) && itemOK tr cl rd (k / 16) p.2.1 (dropN (k % 16) p.2.2) (k % 16) la && kernOK tr cl rd l

/-- the rows agree with the tables -/
def redsOK (s : Nat) : List (Nat × Nat) → Bool
  | [] => true
  | (r, m) :: l => allBelow (fun t => bif Nat.testBit m t then (match action s t with | .reduce r' => Nat.beq r r' | _ => false) else true) 64 && redsOK s l

def transOK (s : Nat) : List (Nat × Nat) → Bool
  | [] => true
  | (x, n) :: l =>
    (bif Nat.blt x 64 then (match action s x with | .shift n' => Nat.beq n n' | _ => false) else Nat.beq (gotoN s (x - 64)) n) &&
      Nat.blt n 267 && transOK s l

def closAll (tr cl rd : List (Nat × Nat)) : List (Nat × Nat) → Bool
  | [] => true
  | (a, la) :: l => closOK tr cl rd a la 0 fcode && closAll tr cl rd l

def checkState (s : Nat) : Bool :=
  let tr := row transTab s
  let cl := row closTab s
  let rd := row redsTab s
  redsOK s rd && transOK s tr && closAll tr cl rd cl && kernOK tr cl rd (row kernTab s)

/-- masks have no bits above 63, and the other tables agree with the grammar -/
def prodOK : Nat × Nat × List Nat → Bool
  | (l, r, rhs) =>
    let f := firstSeq rhs 0
    sub f (nthN firstTab (l - 64)) && (!rhs.all (fun x => Nat.blt 63 x && nullable x) || nullable l) && Nat.blt 63 l &&
      (Nat.beq r 0 || (decide (look yyR1 r = (nthN baseTab (l - 64) : Int)) && decide ((look yyR2 r).toNat = rhs.length)))

theorem fcode_eq : fine.map (fun p => (fntNum p.1, p.2.1, p.2.2.map fsymNum)) = fcode := by decide +kernel

theorem check_prods : fcode.all prodOK = true := by decide +kernel

theorem check_start : find (row closTab 0) (fntNum .file) = some 2 := by decide +kernel

set_option maxRecDepth 100000 in
theorem check_all : allBelow checkState 267 = true := by decide +kernel

/-- refined productions are productions of parse.y -/
theorem fine_base : fine.all (fun p => decide (p.2.1 = 0) || decide (productions[p.2.1 - 1]? = some (p.1.base, p.2.2.map FSym.base))) = true := by decide +kernel

end Verif.Parser
