import Verif.Model.Basic
import Verif.Model.Index

/-!
# Model of the text configuration object

utility/JSONlike.hpp.  A string is a list of characters, `npos` is `none`.  A configuration object is its text `val`, a
flat dictionary from keys to texts, and `valid`: handles cannot be indexed again, and a dictionary read from text is cut at
the first `}` (line 219), so that objects never nest.  The order of `std::map` is not modelled: the dictionary is a list of
pairs in some order.
-/

namespace Cnine
namespace Js

/-- A C++ string. -/
abbrev Str := List Char

/-- `x.find_first_of(set,s)` for the set of characters `p` (and `x.find(c,s)` for one character). -/
def find (p : Char → Bool) (x : Str) (s : Nat) : Option Nat := ((x.drop s).findIdx? p).map (· + s)

/-- `x.substr(s,r-s)` for `s ≤ r`. -/
def sub (x : Str) (s r : Nat) : Str := (x.drop s).take (r - s)

/-- The characters `" \n\t\r"` of utility/JSONlike.hpp:216,224,230,239. -/
def blank (c : Char) : Bool := c = ' ' || c = '\n' || c = '\t' || c = '\r'

/-- The characters `" \n\t\r,}["` of utility/JSONlike.hpp:254. -/
def delim (c : Char) : Bool := blank c || c = ',' || c = '}' || c = '['

/-- The characters `" \n\t\t,}[{"` of utility/JSONlike.hpp:257. -/
def delim2 (c : Char) : Bool := c = ' ' || c = '\n' || c = '\t' || c = ',' || c = '}' || c = '[' || c = '{'

/-- The characters `"]["` of utility/JSONlike.hpp:263,266. -/
def brack (c : Char) : Bool := c = ']' || c = '['

/-- The characters `" \n\t\r,]}"` of utility/JSONlike.hpp:144. -/
def between (c : Char) : Bool := blank c || c = ',' || c = ']' || c = '}'

/-- A decimal digit. -/
def digit (n : Nat) : Char := Char.ofNat (48 + n)

/-- The digits printed by `std::to_string` for a non-negative number. -/
def decNat (n : Nat) : Str := if n < 10 then [digit n] else decNat (n / 10) ++ [digit (n % 10)]
termination_by n

/-- `std::to_string(int)`. -/
def dec : Int → Str
  | .ofNat n => decNat n
  | .negSucc n => '-' :: decNat (n + 1)

/-- The white space skipped by `>>` and `stoi`. -/
def space (c : Char) : Bool := blank c || c = '\x0b' || c = '\x0c'

/-- Value of a digit. -/
def digVal (c : Char) : Nat := c.toNat - 48

/-- Value of the longest run of digits at the start, and whether there is one. -/
def natVal (x : Str) : Option Nat :=
  let d := x.takeWhile Char.isDigit
  if d = [] then none else some (d.foldl (fun a c => 10 * a + digVal c) 0)

/-- Optional sign and digits after white space. -/
def intVal (x : Str) : Option Int :=
  match x.dropWhile space with
  | '-' :: y => (natVal y).map fun n => -(n : Int)
  | '+' :: y => (natVal y).map fun n => (n : Int)
  | y => (natVal y).map fun n => (n : Int)

/-- Values of an `int`. -/
def IntFits (i : Int) : Prop := -(intMax : Int) - 1 ≤ i ∧ i ≤ intMax

instance (i : Int) : Decidable (IntFits i) := inferInstanceAs (Decidable (_ ∧ _))

/-- `stringstream ss(x); int v; ss>>v;` followed by a use of `v` (utility/JSONlike.hpp:140-143): when nothing is left after
white space `v` stays uninitialised; no digits give 0; out of range the nearest `int`. -/
def rdInt (x : Str) : Res Int :=
  if x.dropWhile space = [] then .ub
  else match intVal x with
    | none => .ok 0
    | some i => .ok (max (-(intMax : Int) - 1) (min i intMax))

/-- `stringstream ss(x); string v; ss>>v;` (utility/JSONlike.hpp:140-143): the first word. -/
def rdWord (x : Str) : Res Str := .ok ((x.dropWhile space).takeWhile fun c => !space c)

/-- `std::stoi`. -/
def stoi (x : Str) : Res Int :=
  match intVal x with
  | none => .throw
  | some i => if IntFits i then .ok i else .throw

/-- Conversion of a position to `int` (utility/JSONlike.hpp:136,144). -/
def toInt (p : Nat) : Res Nat := if p ≤ intMax then .ok p else .ub

/-- utility/JSONlike.hpp:262-269 `end_of_clause(str,s,c)`.  When the inner clause is not closed, `s+1` wraps to 0 and the
search starts again; running out of fuel stands for not ending. -/
def endClause (x : Str) : Nat → Nat → Res (Option Nat)
  | 0, _ => .ub
  | fuel + 1, s => go fuel (find brack x (s + 1))
where
  /-- utility/JSONlike.hpp:264-267 the loop. -/
  go (fuel : Nat) : Option Nat → Res (Option Nat)
    | none => .ok none
    | some r =>
      match fuel with
      | 0 => .ub
      | fuel + 1 =>
        if x[r]? = some '[' then do
          let s ← endClause x fuel r
          go fuel (find brack x (match s with | some s => s + 1 | none => 0))
        else .ok (some r)

/-- utility/JSONlike.hpp:254-259 the loop of `end_of_term`. -/
def termLoop (x : Str) : Nat → Option Nat → Res (Option Nat)
  | _, none => .ok none
  | 0, some _ => .ub
  | fuel + 1, some r =>
    if x[r]? = some '[' then do
      let s ← endClause x (x.length + 1) r
      termLoop x fuel (match s with | some s => find delim2 x s | none => none)
    else .ok (some r)

/-- utility/JSONlike.hpp:249-260 `end_of_term(str,s)`; `str[s]` may be the terminating 0. -/
def endTerm (x : Str) (s : Nat) : Res (Option Nat) := do
  Res.need (s ≤ x.length)
  if x[s]? = some '"' then
    match find (· = '"') x (s + 1) with
    | some r => .ok (if r < x.length - 1 then some (r + 1) else none)
    | none => .ok none
  else termLoop x (x.length + 1) (find delim x s)

/-- utility/JSONlike.hpp:137-145 the loop of `get_vec(x)`; `rd` reads one element. -/
def vecLoop {β : Type} (rd : Str → Res β) (x : Str) : Nat → Nat → Res (List β)
  | 0, _ => .ub
  | fuel + 1, s => do
    let e ← endTerm x s
    let r := e.getD (x.length - 1)
    let v ← rd (sub x s r)
    match find (fun c => !between c) x r with
    | none => .ok [v]
    | some p => do
      let p ← toInt p
      let vs ← vecLoop rd x fuel p
      .ok (v :: vs)

/-- utility/JSONlike.hpp:132-147 `get_vec(x)`. -/
def getVec {β : Type} (rd : Str → Res β) (x : Str) : Res (List β) :=
  if x.length < 2 ∨ x[0]? ≠ some '[' then .ok [] else vecLoop rd x x.length 1

/-- utility/JSONlike.hpp:123-130 `get_vec_vec()`. -/
def getVecVec {β : Type} (rd : Str → Res β) (x : Str) : Res (List (List β)) := do
  let S ← getVec rdWord x
  Res.forM S [] fun R p => do
    let v ← getVec rd p
    .ok (R ++ [v])

/-- `oss<<","` before every element but the first. -/
def joinC : List Str → Str
  | [] => []
  | [t] => t
  | t :: u :: l => t ++ ',' :: joinC (u :: l)

/-- utility/JSONlike.hpp:76-87 `set(vector)`, 63-74 `set(initializer_list)`. -/
def setVec (l : List Int) : Str := '[' :: (joinC (l.map dec) ++ [']'])

/-- utility/JSONlike.hpp:89-106 `set(vector<vector>)`. -/
def setVecVec (l : List (List Int)) : Str := '[' :: (joinC (l.map setVec) ++ [']'])

/-- utility/JSONlike.hpp:59-61 `set(string)`. -/
def setStr (s : Str) : Str := '"' :: (s ++ ['"'])

/-- utility/JSONlike.hpp:55-57 `set(int)`. -/
def setInt (i : Int) : Str := setStr (dec i)

/-- utility/JSONlike.hpp:112-116 `get_str()`. -/
def getStr (x : Str) : Str := if 1 < x.length ∧ x[0]? = some '"' ∧ x.getLast? = some '"' then (x.drop 1).dropLast else x

/-- utility/JSONlike.hpp:108-110 `get_int()`. -/
def getInt (x : Str) : Res Int := stoi (getStr x)

/-- The dictionary: utility/JSONlike.hpp:13. -/
abbrev Dict := List (Str × Str)

/-- `dict.find(key)` (utility/JSONlike.hpp:43-53). -/
def look (d : Dict) (k : Str) : Option Str := (d.find? fun p => p.1 = k).map (·.2)

/-- utility/JSONlike.hpp:47-53 and 156-172 `x[key]=…`, 241 `dict[key]=…`: the text stored under a key. -/
def put : Dict → Str → Str → Dict
  | [], k, v => [(k, v)]
  | (k', v') :: d, k, v => if k' = k then (k, v) :: d else (k', v') :: put d k v

/-- utility/JSONlike.hpp:214-227 the constructor on the text of one entry, which contains no `}`: the text kept. -/
def leaf (v : Str) : Str :=
  match find (fun c => !blank c) v 0 with
  | none => []
  | some s =>
    if v[s]? = some '{' then []
    else match find blank v 0 with
      | none => v.drop s
      | some e => if s ≤ e then sub v s e else v.drop s

/-- utility/JSONlike.hpp:231-245 the loop of `parse_dict(str)`, with the flag `valid` at the end. -/
def dictLoop (x : Str) : Nat → Option Nat → Dict → Res (Dict × Bool)
  | 0, _, _ => .ub
  | _ + 1, none, d => .ok (d, true)
  | fuel + 1, some s, d =>
    if s < x.length ∧ d.length < 1000 then
      match find (fun c => c = ' ' || c = '=' || c = '\n' || c = '\t') x s with
      | none => .ok (d, false)
      | some e =>
        match find (· = '=') x e with
        | none => .ok (d, false)
        | some eq =>
          match find (fun c => !blank c) x (eq + 1) with
          | none => .ok (d, false)
          | some f => do
            let g ← endTerm x f
            let d := put d (sub x s e) (leaf (match g with | some g => sub x f g | none => x.drop f))
            match g with
            | none => .ok (d, true)
            | some g => dictLoop x fuel (find (fun c => !(blank c || c = ',' || c = '}')) x g) d
    else .ok (d, true)

/-- utility/JSONlike.hpp:229-247 `parse_dict(str)`. -/
def parseDict (x : Str) : Res (Dict × Bool) := dictLoop x (x.length + 1) (find (fun c => !blank c) x 0) []

/-- utility/JSONlike.hpp:214-227 `JSONlike(str)`: text, dictionary, `valid`. -/
def parse (x : Str) : Res (Str × Dict × Bool) :=
  match find (fun c => !blank c) x 0 with
  | none => .ok ([], [], false)
  | some s =>
    if x[s]? = some '{' then
      match find (· = '}') x s with
      | none => .ok ([], [], false)
      | some e => do
        let p ← parseDict (sub x (s + 1) e)
        .ok ([], p.1, p.2)
    else .ok (leaf x, [], true)

/-- utility/JSONlike.hpp:275-286 `str()` of an object with a dictionary. -/
def print (d : Dict) : Str :=
  if d = [] then [] else '{' :: (joinC (d.map fun p => p.1 ++ '=' :: p.2) ++ ['}'])

end Js
end Cnine
