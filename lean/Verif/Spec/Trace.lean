import Verif.Model.Trace
/-!
# Well-formed documents
-/
namespace Pok.Trace

/-- Reading a document with the stack of the elements that are open; `none`: an end that does not fit. -/
def read : List String → List Mark → Option (List String)
  | st, [] => some st
  | st, .enter t :: ms => read (t :: st) ms
  | st, .num _ :: ms => read st ms
  | [], .leave _ :: _ => none
  | s :: st, .leave t :: ms => if s = t then read st ms else none

/-- Every element is closed, in the right order. -/
def WellFormed (d : List Mark) : Prop := read [] d = some []

/-- The document has the number `v` as an element `tag`. -/
def Has (d : List Mark) (tag : String) (v : Int) : Prop := ∃ a b, d = a ++ [.enter tag, .num v, .leave tag] ++ b

end Pok.Trace
