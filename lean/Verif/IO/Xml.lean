import Mathlib.Data.List.Basic

/-!
# Saving and loading XML

Models of `trunk/SUAVE/Input_Output/XML/{Data,save,load}.py`.

The XML writer and the SAX parser are outside the model: a document is represented by the stream of
events it causes, in which runs of characters may be cut into pieces in any way.  Escaping, encoding
and line-end normalisation are not represented.  `ws` stands for the characters removed by
`str.strip`; it holds for newline and space.
-/

namespace Verif.IO.Xml

/-- An XML `Data`: tag, attributes in order, content, elements (`Data.py` 52-55). -/
inductive E where
  | node (tag : String) (attrs : List (String × String)) (content : List Char) (elements : List E)

/-- An `ElementTree` node: tag, attributes, text and tail (`None` and `''` are not distinguished),
children. -/
inductive T where
  | node (tag : String) (attrs : List (String × String)) (text tail : List Char) (children : List T)

mutual
/-- `to_element` (`save.py` 62-86). -/
def toElement : E → T
  | .node tag attrs content elements => .node tag attrs content [] (toElements elements)
/-- The loop over the elements (79-81). -/
def toElements : List E → List T
  | [] => []
  | a :: l => toElement a :: toElements l
end

/-- `not s or not s.strip()`. -/
def blank (ws : Char → Bool) (s : List Char) : Bool := s.all ws

/-- `"\n" + level*"  "` (`save.py` 126). -/
def newline (level : ℕ) : List Char := '\n' :: List.replicate (2 * level) ' '

/-- Set the tail of the last child if it is blank (132-133: after the loop `elem` is the last
child). -/
def setLastTail (ws : Char → Bool) (i : List Char) : List T → List T
  | [] => []
  | [.node tag attrs text tail ch] => [.node tag attrs text (if blank ws tail then i else tail) ch]
  | a :: b :: l => a :: setLastTail ws i (b :: l)

mutual
/-- `indent` (`save.py` 106-136). -/
def indent (ws : Char → Bool) : ℕ → T → T
  | level, .node tag attrs text tail [] =>
    .node tag attrs text (if level ≠ 0 ∧ blank ws tail then newline level else tail) []
  | level, .node tag attrs text tail (a :: l) =>
    .node tag attrs (if blank ws text then newline level ++ [' ', ' '] else text) tail
      (setLastTail ws (newline level) (indent ws (level + 1) a :: indentL ws (level + 1) l))
/-- The loop over the children (130-131). -/
def indentL (ws : Char → Bool) : ℕ → List T → List T
  | _, [] => []
  | level, a :: l => indent ws level a :: indentL ws level l
end

/-- SAX events. -/
inductive Ev where
  | start (tag : String) (attrs : List (String × String))
  | chars (s : List Char)
  | stop (tag : String)

/-- A run of characters, cut into pieces in some way. -/
inductive Chars : List Char → List Ev → Prop
  | nil : Chars [] []
  | cons (s : List Char) {t : List Char} {l : List Ev} : Chars t l → Chars (s ++ t) (.chars s :: l)

mutual
/-- The event streams of a written node, including its tail. -/
inductive Written : T → List Ev → Prop
  | mk {tag : String} {attrs : List (String × String)} {text tail : List Char} {ch : List T} {a b c : List Ev} :
      Chars text a → WrittenL ch b → Chars tail c →
      Written (.node tag attrs text tail ch) (.start tag attrs :: (a ++ (b ++ (.stop tag :: c))))
/-- The event streams of consecutive nodes. -/
inductive WrittenL : List T → List Ev → Prop
  | nil : WrittenL [] []
  | cons {t : T} {l : List T} {a b : List Ev} : Written t a → WrittenL l b → WrittenL (t :: l) (a ++ b)
end

/-- `str.strip`. -/
def strip (ws : Char → Bool) (s : List Char) : List Char := ((s.dropWhile ws).reverse.dropWhile ws).reverse

/-- The state of `TreeBuilder` (`load.py` 94-98). -/
structure St where
  current : E
  parts : List (List Char)
  stack : List (E × List (List Char))

/-- `self.current.elements.append(element)` (164). -/
def appendTo : E → E → E
  | .node tag attrs content elements, e => .node tag attrs content (elements ++ [e])

/-- `self.current.content = text` (159). -/
def setContent (text : List Char) : E → E
  | .node tag attrs _ elements => .node tag attrs text elements

/-- One event (`load.py` 100-184); `none` for popping an empty stack. -/
def step (ws : Char → Bool) (st : St) : Ev → Option St
  | .start tag attrs => some ⟨.node tag attrs [] [], [], (st.current, st.parts) :: st.stack⟩
  | .chars s => some { st with parts := st.parts ++ [s] }
  | .stop _ =>
    match st.stack with
    | [] => none
    | (c, p) :: rest => some ⟨appendTo c (setContent (strip ws st.parts.flatten) st.current), p, rest⟩

/-- A stream of events. -/
def run (ws : Char → Bool) (st : St) : List Ev → Option St
  | [] => some st
  | e :: l => (step ws st e).bind fun st => run ws st l

/-- `builder.root.elements[0]` after parsing (`load.py` 47-59); the root is empty. -/
def load (ws : Char → Bool) (evs : List Ev) : Option E :=
  (run ws ⟨.node "" [] [] [], [], []⟩ evs).bind fun st =>
    match st.current with
    | .node _ _ _ elements => elements.head?

/-- A nested dictionary: a value by its `str`, or keys and values. -/
inductive D where
  | leaf (s : List Char)
  | dict (keys : List String) (vals : List D)

/-- `element.tag = key`. -/
def setTag (tag : String) : E → E
  | .node _ attrs content elements => .node tag attrs content elements

mutual
/-- `Data.from_dict` (`Data.py` 104-141): `own` is the translated `tag` of the dictionary or
`'node'`; for a value that is not a dictionary the element made in 136-139. -/
def fromDict (own : List String → List D → String) : D → E
  | .leaf s => .node "" [] s []
  | .dict keys vals => .node (own keys vals) [] [] (fromDictL own keys vals)
/-- The loop over the items (130-139). -/
def fromDictL (own : List String → List D → String) : List String → List D → List E
  | k :: keys, v :: vals => setTag k (fromDict own v) :: fromDictL own keys vals
  | _, _ => []
end

end Verif.IO.Xml
