import Verif.Pages.Model
/-
Page trees as the PDF specification describes them (ISO 32000-1, 7.7.3), and how a tree lies in the objects of
a document.
-/
set_option autoImplicit false
namespace Pdfmm.Spec

/-- A page tree: pages and intermediate nodes, each with the reference of its object. -/
inductive PTree
  | page (r : Ref)
  | node (r : Ref) (kids : List PTree)

/-- The reference of the top node. -/
def PTree.ref : PTree → Ref
  | .page r => r
  | .node r _ => r

mutual
/-- The pages in document order. -/
def PTree.pages : PTree → List Ref
  | .page r => [r]
  | .node _ ks => pagesOf ks
def pagesOf : List PTree → List Ref
  | [] => []
  | t :: ts => t.pages ++ pagesOf ts
end

mutual
/-- All nodes of the tree, pages and intermediate nodes. -/
def PTree.all : PTree → List PTree
  | .page r => [.page r]
  | .node r ks => .node r ks :: allOf ks
def allOf : List PTree → List PTree
  | [] => []
  | t :: ts => t.all ++ allOf ts
end

mutual
/-- How many intermediate nodes lie on the longest way down. -/
def PTree.height : PTree → Nat
  | .page _ => 0
  | .node _ ks => heightOf ks + 1
def heightOf : List PTree → Nat
  | [] => 0
  | t :: ts => max t.height (heightOf ts)
end

/-- The object of a node says what the tree says: a page is a dictionary of type `Page`; an intermediate node
is a dictionary of type `Pages` whose `/Kids` names its children in order and whose `/Count` is the number of
pages below it. -/
def NodeOK (h : PHeap) : PTree → Prop
  | .page r => ∃ n, h r = some (.dict n) ∧ n.type = .page
  | .node r ks => ∃ n, h r = some (.dict n) ∧ n.type = .pages ∧
      n.kids = .arr (ks.map (fun k => .ref k.ref)) ∧ n.count = .num (pagesOf ks).length

/-- The children of a node name it as their `/Parent`. -/
def LinkOK (h : PHeap) : PTree → Prop
  | .page _ => True
  | .node r ks => ∀ k ∈ ks, ∃ n, h k.ref = some (.dict n) ∧ n.parent = some r

/-- The objects hold the page tree `t`: every node is as it should be, and no object is used twice. -/
structure IsPageTree (h : PHeap) (t : PTree) : Prop where
  ok : ∀ s ∈ t.all, NodeOK h s
  nodup : (t.all.map PTree.ref).Nodup

/-- The tree has its `/Parent` links: required of a correct file, but not needed to find pages. -/
structure Linked (h : PHeap) (t : PTree) : Prop where
  ok : ∀ s ∈ t.all, LinkOK h s
  root : ∃ n, h t.ref = some (.dict n) ∧ n.parent = none

end Pdfmm.Spec
