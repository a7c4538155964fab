/-
Python string methods on ASCII strings, as lists of characters (structural recursion, so that the kernel can
evaluate them): lower, upper, capitalize, split, join, replace.
-/

namespace Verif.PyStr

/-- strings as character lists -/
abbrev Str := List Char

def lowerC (c : Char) : Char := if 'A' ≤ c ∧ c ≤ 'Z' then Char.ofNat (c.toNat + 32) else c
def upperC (c : Char) : Char := if 'a' ≤ c ∧ c ≤ 'z' then Char.ofNat (c.toNat - 32) else c

/-- `s.lower()` -/
def lower (s : Str) : Str := s.map lowerC
/-- `s.upper()` -/
def upper (s : Str) : Str := s.map upperC
/-- `s.capitalize()`: first character upper case, the rest lower case -/
def capitalize : Str → Str
  | [] => []
  | c :: cs => upperC c :: lower cs

/-- `s.split(sep)` for a one-character separator -/
def split (sep : Char) : Str → List Str
  | [] => [[]]
  | c :: cs =>
    if c = sep then [] :: split sep cs
    else match split sep cs with
      | [] => [[c]]
      | w :: ws => (c :: w) :: ws

/-- `sep.join(words)` for a one-character separator -/
def join (sep : Char) : List Str → Str
  | [] => []
  | [w] => w
  | w :: ws => w ++ sep :: join sep ws

/-- `sep.join(word.capitalize() for word in s.split(sep))` -/
def title (sep : Char) (s : Str) : Str := join sep ((split sep s).map capitalize)

/-- `s.replace(a, b)` for single characters -/
def replace (a b : Char) (s : Str) : Str := s.map (fun c => if c = a then b else c)

end Verif.PyStr
