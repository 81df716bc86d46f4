import Verif.IO.FreeMind

/-!
# C420: mind maps
-/

namespace Verif.IO
open Verif.Core (Key)

mutual
/-- In `data` the text `s` stands under the keys `ks`; being a member of a list adds no key. -/
inductive Holds : PyVal → List Key → Key → Prop
  | atom (s : Key) : Holds (.atom s) [] s
  | dict {kvs ks s} : HoldsItems kvs ks s → Holds (.dict kvs) ks s
  | list {xs ks s} : HoldsList xs ks s → Holds (.list xs) ks s
inductive HoldsItems : PyItems → List Key → Key → Prop
  | here {k v rest ks s} : Holds v ks s → HoldsItems (.cons k v rest) (k :: ks) s
  | there {k v rest ks s} : HoldsItems rest ks s → HoldsItems (.cons k v rest) ks s
inductive HoldsList : PyList → List Key → Key → Prop
  | here {v rest ks s} : Holds v ks s → HoldsList (.cons v rest) ks s
  | there {v rest ks s} : HoldsList rest ks s → HoldsList (.cons v rest) ks s
end

/-- Reading down the map from the top: the texts of the nodes on the way to a node without nodes below it. -/
inductive ReadsDown : MapNodes → List Key → Prop
  | leaf {t rest} : ReadsDown (.cons (.mk t .nil) rest) [t]
  | under {t n ns rest p} : ReadsDown (.cons n ns) p → ReadsDown (.cons (.mk t (.cons n ns)) rest) (t :: p)
  | next {n rest p} : ReadsDown rest p → ReadsDown (.cons n rest) p

theorem ReadsDown.down {t : Key} {b rest : MapNodes} {p : List Key} (h : ReadsDown b p) :
    ReadsDown (.cons (.mk t b) rest) (t :: p) := by
  cases b with
  | nil => cases h
  | cons n ns => exact .under h

theorem ReadsDown.joinLeft {a : MapNodes} {p : List Key} (h : ReadsDown a p) : ∀ b, ReadsDown (a.join b) p := by
  induction h with
  | leaf => intro b; exact .leaf
  | under h _ => intro b; exact .under h
  | next _ ih => intro b; exact .next (ih b)

theorem ReadsDown.joinRight {b : MapNodes} {p : List Key} (h : ReadsDown b p) : ∀ a : MapNodes, ReadsDown (a.join b) p
  | .nil => h
  | .cons _ rest => .next (h.joinRight rest)

mutual
theorem holds_reads : ∀ {d : PyVal} {ks : List Key} {s : Key}, Holds d ks s → ReadsDown (buildNodes d) (ks ++ [s])
  | _, _, _, .atom s => by simpa [buildNodes] using ReadsDown.leaf
  | _, _, _, .dict h => by simpa [buildNodes] using holdsItems_reads h
  | _, _, _, .list h => by simpa [buildNodes] using holdsList_reads h
theorem holdsItems_reads : ∀ {d : PyItems} {ks : List Key} {s : Key}, HoldsItems d ks s →
    ReadsDown (buildItems d) (ks ++ [s])
  | _, _, _, .here h => (holds_reads h).down
  | _, _, _, .there h => .next (holdsItems_reads h)
theorem holdsList_reads : ∀ {d : PyList} {ks : List Key} {s : Key}, HoldsList d ks s →
    ReadsDown (buildList d) (ks ++ [s])
  | _, _, _, .here h => (holds_reads h).joinLeft _
  | _, _, _, .there h => (holdsList_reads h).joinRight _
end

/-- **C420 (every value is shown).** Each value of the data can be read at the end of the keys that lead to it, below the
tag of the data if it has one. -/
theorem C420_shown (tag : Option Key) (d : PyVal) (ks : List Key) (s : Key) (h : Holds d ks s) :
    ReadsDown (freeMind tag d) (tag.toList ++ ks ++ [s]) := by
  cases tag with
  | none => simpa [freeMind] using holds_reads h
  | some t =>
    have := holds_reads (.dict (HoldsItems.here (k := t) (rest := .nil) h))
    simpa [freeMind] using this

mutual
/-- Nothing is in it: `None`, or a dictionary or list without anything. -/
inductive Blank : PyVal → Prop
  | none : Blank .none
  | dict : Blank (.dict .nil)
  | list {xs} : BlankList xs → Blank (.list xs)
inductive BlankList : PyList → Prop
  | nil : BlankList .nil
  | cons {v rest} : Blank v → BlankList rest → BlankList (.cons v rest)
end

mutual
/-- The keys `ks` lead to something blank. -/
inductive HoldsBlank : PyVal → List Key → Prop
  | dict {kvs ks} : HoldsBlankItems kvs ks → HoldsBlank (.dict kvs) ks
  | list {xs ks} : HoldsBlankList xs ks → HoldsBlank (.list xs) ks
inductive HoldsBlankItems : PyItems → List Key → Prop
  | blank {k v rest} : Blank v → HoldsBlankItems (.cons k v rest) [k]
  | here {k v rest ks} : HoldsBlank v ks → HoldsBlankItems (.cons k v rest) (k :: ks)
  | there {k v rest ks} : HoldsBlankItems rest ks → HoldsBlankItems (.cons k v rest) ks
inductive HoldsBlankList : PyList → List Key → Prop
  | here {v rest ks} : HoldsBlank v ks → HoldsBlankList (.cons v rest) ks
  | there {v rest ks} : HoldsBlankList rest ks → HoldsBlankList (.cons v rest) ks
end

theorem join_nil : ∀ {a b : MapNodes}, a.join b = .nil → a = .nil ∧ b = .nil
  | .nil, _, h => ⟨rfl, h⟩

mutual
theorem blank_of_nil : ∀ d : PyVal, buildNodes d = .nil → Blank d
  | .dict .nil, _ => .dict
  | .dict (.cons _ _ _), h => by simp [buildNodes, buildItems] at h
  | .list xs, h => .list (blankList_of_nil xs (by simpa [buildNodes] using h))
  | .none, _ => .none
  | .atom _, h => by simp [buildNodes] at h
theorem blankList_of_nil : ∀ d : PyList, buildList d = .nil → BlankList d
  | .nil, _ => .nil
  | .cons v rest, h => by
    obtain ⟨h1, h2⟩ := join_nil (by simpa [buildList] using h)
    exact .cons (blank_of_nil v h1) (blankList_of_nil rest h2)
end

theorem reads_cons {t : Key} {b rest : MapNodes} {p : List Key} (h : ReadsDown (.cons (.mk t b) rest) p) :
    (b = .nil ∧ p = [t]) ∨ (∃ q, p = t :: q ∧ ReadsDown b q) ∨ ReadsDown rest p := by
  cases h with
  | leaf => exact .inl ⟨rfl, rfl⟩
  | under h => exact .inr (.inl ⟨_, rfl, h⟩)
  | next h => exact .inr (.inr h)

theorem reads_join : ∀ {a b : MapNodes} {p : List Key}, ReadsDown (a.join b) p → ReadsDown a p ∨ ReadsDown b p
  | .nil, _, _, h => .inr h
  | .cons (.mk t below) rest, b, p, h => by
    rcases reads_cons (show ReadsDown (.cons (.mk t below) (rest.join b)) p from h) with ⟨rfl, rfl⟩ | ⟨q, rfl, hq⟩ | h
    · exact .inl .leaf
    · exact .inl hq.down
    · rcases reads_join h with h | h
      · exact .inl (.next h)
      · exact .inr h

mutual
theorem reads_holds : ∀ (d : PyVal) (p : List Key), ReadsDown (buildNodes d) p →
    (∃ ks s, p = ks ++ [s] ∧ Holds d ks s) ∨ HoldsBlank d p
  | .dict kvs, p, h => by
    rcases readsItems_holds kvs p (by simpa [buildNodes] using h) with ⟨ks, s, e, h⟩ | h
    · exact .inl ⟨ks, s, e, .dict h⟩
    · exact .inr (.dict h)
  | .list xs, p, h => by
    rcases readsList_holds xs p (by simpa [buildNodes] using h) with ⟨ks, s, e, h⟩ | h
    · exact .inl ⟨ks, s, e, .list h⟩
    · exact .inr (.list h)
  | .none, _, h => by simp only [buildNodes] at h; cases h
  | .atom s, p, h => by
    simp only [buildNodes] at h
    rcases reads_cons h with ⟨-, rfl⟩ | ⟨q, -, hq⟩ | h
    · exact .inl ⟨[], s, rfl, .atom s⟩
    · cases hq
    · cases h
theorem readsItems_holds : ∀ (d : PyItems) (p : List Key), ReadsDown (buildItems d) p →
    (∃ ks s, p = ks ++ [s] ∧ HoldsItems d ks s) ∨ HoldsBlankItems d p
  | .nil, _, h => by simp only [buildItems] at h; cases h
  | .cons k v rest, p, h => by
    simp only [buildItems] at h
    rcases reads_cons h with ⟨hb, rfl⟩ | ⟨q, rfl, hq⟩ | h
    · exact .inr (.blank (blank_of_nil v hb))
    · rcases reads_holds v q hq with ⟨ks, s, rfl, hs⟩ | hs
      · exact .inl ⟨k :: ks, s, rfl, .here hs⟩
      · exact .inr (.here hs)
    · rcases readsItems_holds rest p h with ⟨ks, s, e, h⟩ | h
      · exact .inl ⟨ks, s, e, .there h⟩
      · exact .inr (.there h)
theorem readsList_holds : ∀ (d : PyList) (p : List Key), ReadsDown (buildList d) p →
    (∃ ks s, p = ks ++ [s] ∧ HoldsList d ks s) ∨ HoldsBlankList d p
  | .nil, _, h => by simp only [buildList] at h; cases h
  | .cons v rest, p, h => by
    simp only [buildList] at h
    rcases reads_join h with h | h
    · rcases reads_holds v p h with ⟨ks, s, e, h⟩ | h
      · exact .inl ⟨ks, s, e, .here h⟩
      · exact .inr (.here h)
    · rcases readsList_holds rest p h with ⟨ks, s, e, h⟩ | h
      · exact .inl ⟨ks, s, e, .there h⟩
      · exact .inr (.there h)
end

/-- **C420 (nothing else is shown).** What is read down the map is a value of the data at the end of the keys that lead to
it, or the keys that lead to something blank. -/
theorem C420_only (d : PyVal) (p : List Key) (h : ReadsDown (freeMind none d) p) :
    (∃ ks s, p = ks ++ [s] ∧ Holds d ks s) ∨ HoldsBlank d p :=
  reads_holds d p h

mutual
/-- Keys and values in the order of the data. -/
def wordsOf : PyVal → List Key
  | .dict kvs => wordsOfItems kvs
  | .list xs => wordsOfList xs
  | .none => []
  | .atom s => [s]
def wordsOfItems : PyItems → List Key
  | .nil => []
  | .cons k v rest => k :: (wordsOf v ++ wordsOfItems rest)
def wordsOfList : PyList → List Key
  | .nil => []
  | .cons v rest => wordsOf v ++ wordsOfList rest
end

mutual
/-- The texts of the map from top to bottom. -/
def mapTexts : MapNodes → List Key
  | .nil => []
  | .cons n rest => nodeTexts n ++ mapTexts rest
def nodeTexts : MapNode → List Key
  | .mk t below => t :: mapTexts below
end

theorem mapTexts_join : ∀ a b : MapNodes, mapTexts (a.join b) = mapTexts a ++ mapTexts b
  | .nil, b => by simp [MapNodes.join, mapTexts]
  | .cons n rest, b => by simp [MapNodes.join, mapTexts, mapTexts_join rest b]

mutual
theorem mapTexts_build : ∀ d : PyVal, mapTexts (buildNodes d) = wordsOf d
  | .dict kvs => by simpa [buildNodes, wordsOf] using mapTexts_items kvs
  | .list xs => by simpa [buildNodes, wordsOf] using mapTexts_list xs
  | .none => by simp [buildNodes, wordsOf, mapTexts]
  | .atom s => by simp [buildNodes, wordsOf, mapTexts, nodeTexts]
theorem mapTexts_items : ∀ d : PyItems, mapTexts (buildItems d) = wordsOfItems d
  | .nil => by simp [buildItems, wordsOfItems, mapTexts]
  | .cons k v rest => by simp [buildItems, wordsOfItems, mapTexts, nodeTexts, mapTexts_build v, mapTexts_items rest]
theorem mapTexts_list : ∀ d : PyList, mapTexts (buildList d) = wordsOfList d
  | .nil => by simp [buildList, wordsOfList, mapTexts]
  | .cons v rest => by simp [buildList, wordsOfList, mapTexts_join, mapTexts_build v, mapTexts_list rest]
end

/-- **C420 (order).** Keys and values stand in the map in the order of the data. -/
theorem C420_order (tag : Option Key) (d : PyVal) : mapTexts (freeMind tag d) = tag.toList ++ wordsOf d := by
  cases tag with
  | none => simpa [freeMind] using mapTexts_build d
  | some t => simp [freeMind, mapTexts_build, wordsOf, wordsOfItems]

/-- Two lists, one of which holds a list, and a key without value. -/
def exMindData : PyVal :=
  .dict (.cons ['a'] (.list (.cons (.atom ['1']) (.cons (.list (.cons (.atom ['2']) .nil)) .nil)))
    (.cons ['b'] .none .nil))

example : Holds exMindData [['a']] ['2'] ∧ HoldsBlank exMindData [['b']] ∧ ReadsDown (freeMind none exMindData) [['b']]
    ∧ mapTexts (freeMind (some ['t']) exMindData) = [['t'], ['a'], ['1'], ['2'], ['b']] :=
  ⟨.dict (.here (.list (.there (.here (.list (.here (.atom _))))))), .dict (.there (.blank .none)),
    .next .leaf, rfl⟩

/-- **C420 (counterexample).** Different data give the same map: lists in lists are levelled, `None`, an empty dictionary
and an empty list are told apart by nothing, and a value looks like a key that leads to nothing. -/
theorem C420_same_counterexample :
    (∀ xs ys : PyList, freeMind none (.list (.cons (.list xs) ys)) = (buildList xs).join (buildList ys))
    ∧ freeMind none (.list (.cons (.list (.cons (.atom ['1']) .nil)) (.cons (.atom ['2']) .nil)))
      = freeMind none (.list (.cons (.atom ['1']) (.cons (.atom ['2']) .nil)))
    ∧ (∀ k : Key, freeMind none (.dict (.cons k .none .nil)) = freeMind none (.dict (.cons k (.dict .nil) .nil))
      ∧ freeMind none (.dict (.cons k .none .nil)) = freeMind none (.dict (.cons k (.list .nil) .nil)))
    ∧ ∀ k s : Key, freeMind none (.dict (.cons k (.atom s) .nil))
      = freeMind none (.dict (.cons k (.dict (.cons s .none .nil)) .nil)) :=
  ⟨fun _ _ => by simp [freeMind, buildNodes, buildList], rfl, fun _ => ⟨rfl, rfl⟩, fun _ _ => rfl⟩

end Verif.IO
