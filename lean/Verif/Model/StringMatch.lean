import Verif.Model.Outcome
/-!
Model of /repo/src/autopas/utils/StringUtils.h (matching and tokenizing) and /repo/src/autopas/options/Option.h (parsing). Strings are lists of characters.
-/
namespace Verif

/-- One entry of the score matrix, StringUtils.h:50-58: `diagonal`, `left` (row above) and `top` (entry before in the same row) are the neighbouring entries. -/
def nwEntry (c d : Char) (diagonal left top : Int) : Int :=
  max (max (diagonal + (if c = d then 1 else -1)) (left + -1)) (top + -1)

/-- The inner loop over `j`, StringUtils.h:49-59: computes the rest of row `i` from the rest of the row above. `diagonal` is the entry above the previous one, `top` the
previous one. -/
def nwRowRest (c : Char) : List Char → List Int → Int → Int → List Int
  | [], _, _, _ => []
  | _, [], _, _ => []
  | d :: s2, left :: prev, diagonal, top =>
    let e := nwEntry c d diagonal left top
    e :: nwRowRest c s2 prev left e

/-- Row `i` from row `i - 1`: the border entry is `i * scoreGap`, StringUtils.h:40-42. -/
def nwRow (c : Char) (s2 : List Char) (i : Nat) : List Int → List Int
  | [] => []
  | diagonal :: prev => -(i : Int) :: nwRowRest c s2 prev diagonal (-(i : Int))

/-- The outer loop, StringUtils.h:48-60: the last row of the matrix. Only the row above is read, so only that one is kept. -/
def nwRows (s2 : List Char) : List Char → Nat → List Int → List Int
  | [], _, row => row
  | c :: s1, i, row => nwRows s2 s1 (i + 1) (nwRow c s2 (i + 1) row)

/-- `needlemanWunschScore`, StringUtils.h:30-65. Row 0 holds the gap penalties (43-45). `int` is unbounded. -/
def needlemanWunschScore (s1 s2 : List Char) : Int :=
  (nwRows s2 s1 0 ((List.range (s2.length + 1)).map fun (j : Nat) => -(j : Int))).getLastD 0

/-- The loop of `matchStrings`, StringUtils.h:81-92. `best` is `none` before the first candidate (`numeric_limits<int>::min()`). -/
def matchLoop (needle : List Char) : List (List Char) → Option Int → List (List Char) → List (List Char)
  | [], _, matched => matched
  | s :: haystack, best, matched =>
    let distance := needlemanWunschScore needle s
    let better := match best with
      | none => true
      | some b => decide (distance > b)
    let matched' := if better then [] else matched
    let best' := if better then some distance else best
    let atLeast := match best' with
      | none => true
      | some b => decide (distance ≥ b)
    matchLoop needle haystack best' (if atLeast then matched' ++ [s] else matched')

/-- `matchStrings`, StringUtils.h:77-106: ambiguity throws; the first element of an empty vector is undefined behaviour. -/
def matchStrings (haystack : List (List Char)) (needle : List Char) : Outcome (List Char) :=
  match matchLoop (needle.map Char.toLower) haystack none [] with
  | [] => .ub
  | [s] => .ok s
  | _ :: _ :: _ => .throws

/-- `tokenize`, StringUtils.h:141-152: `cur` is the text since the last delimiter. -/
def tokenizeFrom (isDelim : Char → Bool) : List Char → List Char → List (List Char)
  | [], cur => if cur = [] then [] else [cur]
  | c :: s, cur =>
    if isDelim c then (if cur = [] then [] else [cur]) ++ tokenizeFrom isDelim s []
    else tokenizeFrom isDelim s (cur ++ [c])

/-- `tokenize`. -/
def tokenize (isDelim : Char → Bool) (s : List Char) : List (List Char) := tokenizeFrom isDelim s []

/-- The default delimiters, StringUtils.h:111. -/
def defaultDelim (c : Char) : Bool := [' ', ',', ';', '|', '/'].contains c

variable {E : Type}

/-- `parseOptions` for options with the given table of names, Option.h:109-146, as the list of parsed values (the code puts them into a set or another container).
`emplace` keeps the first option of a name. -/
def parseOptions (names : List (E × List Char)) (s : List Char) : Outcome (List E) :=
  let needles := tokenize defaultDelim s
  if needles = ["all".toList] then .ok (names.map Prod.fst)
  else
    let lower := names.map fun x => (x.1, x.2.map Char.toLower)
    needles.foldr (fun needle acc => acc.bind fun rest => (matchStrings (lower.map Prod.snd) needle).bind fun m =>
      match lower.find? (fun x => x.2 = m) with
      | some x => .ok (x.1 :: rest)
      | none => .ub) (.ok [])

/-- `parseOptionExact` (case sensitive), Option.h:157-171. -/
def parseOptionExact (names : List (E × List Char)) (s : List Char) : Outcome E :=
  match names.find? (fun x => x.2 = s) with
  | some x => .ok x.1
  | none => .throws

/-- The characters that `operator>>` takes as part of an option, Option.h:203. -/
def isOptionChar (c : Char) : Bool := c.isAlphanum || c = '_' || c = '-'

/-- Skipping leading white space, Option.h:192-196: returns the first other character and the rest. At the end of the stream `get` leaves `c` unchanged: the loop does
not end. -/
def skipSpace : List Char → Outcome (Char × List Char)
  | [] => .diverges
  | c :: s => if c.isWhitespace then skipSpace s else .ok (c, s)

/-- Collecting characters, Option.h:200-205. `last` is the current value of `c`; at the end of the stream `get` leaves it unchanged, so the loop does not end if `last` is
an option character. -/
def collectOption : List Char → Char → Outcome (List Char × List Char)
  | [], last => if isOptionChar last then .diverges else .ok ([], [])
  | c :: s, _ => if isOptionChar c then (collectOption s c).bind fun r => .ok (c :: r.1, r.2) else .ok ([], s)

/-- `operator>>`, Option.h:190-210: the option and the rest of the stream. -/
def readOption (names : List (E × List Char)) (stream : List Char) : Outcome (E × List Char) :=
  (skipSpace stream).bind fun r => (collectOption r.2 r.1).bind fun t => (parseOptionExact names (r.1 :: t.1)).bind fun o => .ok (o, t.2)

end Verif
