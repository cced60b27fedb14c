import Verif.Model.Xml

/-! # What an XML reader returns for a written tree -/

namespace Svd.Spec

mutual
/-- A written tree as an XML reader returns it: there are no empty text nodes in a file. -/
def asRead : Xml → Xml
  | .elem tag as cs => .elem tag as (asReads cs)
  | .text s => .text s
  | .other => .other
def asReads : List Xml → List Xml
  | [] => []
  | .text [] :: cs => asReads cs
  | c :: cs => asRead c :: asReads cs
end

end Svd.Spec
