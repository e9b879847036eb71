import Verif.Py.Text
import Verif.Py.Dict

/-!
# Element trees

`xml.etree.ElementTree` elements. The XML text syntax (parsing, serialisation, escaping) is not modelled.
-/

namespace Verif

/-- An element: tag, attributes, text before the first child (possibly None), children. -/
inductive Elem where
  | mk (tag : String) (attrib : List (String × Text)) (text : Option Text) (children : List Elem)

namespace Elem

/-- `e.tag`. -/
def tag : Elem → String | mk t _ _ _ => t
/-- `e.attrib`. -/
def attrib : Elem → List (String × Text) | mk _ a _ _ => a
/-- `e.text`. -/
def text : Elem → Option Text | mk _ _ t _ => t
/-- The children. -/
def children : Elem → List Elem | mk _ _ _ c => c
/-- `e.attrib.get(k)`. -/
def get (e : Elem) (k : String) : Option Text := dictGet e.attrib k
/-- `e.findall(tag)`. -/
def findall (e : Elem) (t : String) : List Elem := e.children.filter fun c => c.tag == t

end Elem

end Verif
