import Verif.Spec.Routing
import Mathlib.Tactic.SplitIfs
import Mathlib.Tactic.Common

set_option autoImplicit false

namespace Verif.Routing

variable {K : Type*}

/-- The paths of a table with the given names. -/
def under (base : Path) (ns : List String) : List Path := ns.map fun n => base ++ n.toList

/-- One entry after the call. -/
def upd (base p : Path) (v : K) (e : Entry K) : Entry K :=
  if base ++ e.name = p then { e with value := v, used := true } else e

/-- One table after the call. -/
def updT (base p : Path) (v : K) (t : Table K) : Table K := t.map (upd base p v)

/-- The names of a table are the given ones. -/
def Named (t : Table K) (ns : List String) : Prop := t.map (·.name) = ns.map String.toList

theorem Named.keys {t : Table K} {ns : List String} (h : Named t ns) (base : Path) :
    t.map (fun e => base ++ e.name) = under base ns := by
  have : t.map (fun e => base ++ e.name) = (t.map (·.name)).map (base ++ ·) := by simp
  rw [this, h]; simp [under]

theorem updT_of_notMem {t : Table K} {ns : List String} (h : Named t ns) {base p : Path} (v : K)
    (hp : p ∉ under base ns) : updT base p v t = t := by
  rw [← h.keys base] at hp
  unfold updT
  conv_rhs => rw [← List.map_id t]
  refine List.map_congr_left fun e he => ?_
  have : base ++ e.name ≠ p := fun e' => hp (List.mem_map.2 ⟨e, he, e'⟩)
  simp [upd, this]

theorem setIn_none_iff {t : Table K} {base p : Path} {v : K} :
    setIn t base p v = none ↔ p ∉ t.map (fun e => base ++ e.name) := by
  induction t with
  | nil => simp [setIn]
  | cons e t ih =>
    simp only [setIn]
    split_ifs with h
    · simp [h]
    · rw [Option.map_eq_none_iff, ih]
      simp only [List.map_cons, List.mem_cons, not_or]
      exact ⟨fun x => ⟨fun e' => h e'.symm, x⟩, fun x => x.2⟩

theorem setIn_none {t : Table K} {ns : List String} (h : Named t ns) {base p : Path} (v : K)
    (hp : p ∉ under base ns) : setIn t base p v = none := by
  rw [setIn_none_iff, h.keys]; exact hp

theorem setIn_some_aux {base p : Path} {v : K} : ∀ {t : Table K}, (t.map (·.name)).Nodup →
    p ∈ t.map (fun e => base ++ e.name) → setIn t base p v = some (updT base p v t)
  | [], _, h => by simp at h
  | e :: t, nd, h => by
    simp only [List.map_cons, List.nodup_cons] at nd
    simp only [setIn]
    split_ifs with he
    · congr 1
      simp only [updT, List.map_cons, upd, he, if_true]
      congr 1
      conv_lhs => rw [← List.map_id t]
      refine List.map_congr_left fun e' he' => ?_
      have : ¬ base ++ e'.name = p := by
        intro h'
        rw [← he] at h'
        have := List.append_cancel_left h'
        exact nd.1 (List.mem_map.2 ⟨e', he', this⟩)
      simp [upd, this]
    · have : p ∈ t.map (fun e => base ++ e.name) := by
        simp only [List.map_cons, List.mem_cons] at h
        rcases h with h | h
        · exact absurd h.symm he
        · exact h
      rw [setIn_some_aux nd.2 this]
      simp [updT, upd, he]

theorem setIn_some {t : Table K} {ns : List String} (h : Named t ns) (nd : (ns.map String.toList).Nodup)
    {base p : Path} (v : K) (hp : p ∈ under base ns) : setIn t base p v = some (updT base p v t) := by
  refine setIn_some_aux ?_ ?_
  · rw [h]; exact nd
  · rw [h.keys]; exact hp

/-- One extra parameter after the call. -/
def updE (p : Path) (v : K) (e : Entry K) : Entry K := if e.name = p then { e with value := v } else e

theorem setExtra_none_iff {t : Table K} {p : Path} {v : K} :
    setExtra t p v = none ↔ p ∉ t.map (·.name) := by
  induction t with
  | nil => simp [setExtra]
  | cons e t ih =>
    simp only [setExtra]
    split_ifs with h
    · simp [h]
    · rw [Option.map_eq_none_iff, ih]
      simp only [List.map_cons, List.mem_cons, not_or]
      exact ⟨fun x => ⟨fun e' => h e'.symm, x⟩, fun x => x.2⟩

theorem setExtra_some {p : Path} {v : K} : ∀ {t : Table K}, (t.map (·.name)).Nodup →
    p ∈ t.map (·.name) → setExtra t p v = some (t.map (updE p v))
  | [], _, h => by simp at h
  | e :: t, nd, h => by
    simp only [List.map_cons, List.nodup_cons] at nd
    simp only [setExtra]
    split_ifs with he
    · congr 1
      simp only [List.map_cons, updE, he, if_true]
      congr 1
      conv_lhs => rw [← List.map_id t]
      refine List.map_congr_left fun e' he' => ?_
      have : ¬ e'.name = p := fun h' => nd.1 (List.mem_map.2 ⟨e', he', by rw [h', he]⟩)
      simp [updE, this]
    · have : p ∈ t.map (·.name) := by
        simp only [List.map_cons, List.mem_cons] at h
        rcases h with h | h
        · exact absurd h.symm he
        · exact h
      rw [setExtra_some nd.2 this]
      simp [updE, he]

theorem updE_of_notMem {t : Table K} {p : Path} (v : K) (hp : p ∉ t.map (·.name)) : t.map (updE p v) = t := by
  conv_rhs => rw [← List.map_id t]
  refine List.map_congr_left fun e he => ?_
  have : e.name ≠ p := fun e' => hp (List.mem_map.2 ⟨e, he, e'⟩)
  simp [updE, this]

/-- A tyre as constructed and as every call leaves it. -/
structure WfTyre (t : Tyre K) (path : Path) : Prop where
  path : t.path = path
  own : Named t.own tyreOwnNames
  model : Named t.model tyreModelNames
  base : Named t.base tyreBaseNames

/-- The tyre after the call. -/
def updTyre (p : Path) (v : K) (t : Tyre K) : Tyre K :=
  { t with own := updT t.path p v t.own, model := updT t.path p v t.model, base := updT t.path p v t.base }

/-- The paths of a tyre. -/
def tyreKeys (path : Path) : List Path := under path (tyreOwnNames ++ tyreModelNames ++ tyreBaseNames)

theorem tyreNames_nodup : ((tyreOwnNames ++ tyreModelNames ++ tyreBaseNames).map String.toList).Nodup := by
  decide +kernel

theorem mem_under_append {base p : Path} {a b : List String} :
    p ∈ under base (a ++ b) ↔ p ∈ under base a ∨ p ∈ under base b := by
  simp [under]

theorem isPrefixOf_under {base p : Path} {ns : List String} (h : p ∈ under base ns) : base.isPrefixOf p = true := by
  obtain ⟨n, _, rfl⟩ := List.mem_map.1 h
  simp [List.isPrefixOf_iff_prefix]

theorem under_disjoint {base p : Path} {a b : List String} (nd : ((a ++ b).map String.toList).Nodup)
    (ha : p ∈ under base a) : p ∉ under base b := by
  intro hb
  obtain ⟨n, hn, rfl⟩ := List.mem_map.1 ha
  obtain ⟨m, hm, e⟩ := List.mem_map.1 hb
  rw [List.map_append, List.nodup_append] at nd
  exact nd.2.2 _ (List.mem_map.2 ⟨n, hn, rfl⟩) _ (List.mem_map.2 ⟨m, hm, rfl⟩) (List.append_cancel_left e).symm

theorem setTyre_mem {t : Tyre K} {path : Path} (w : WfTyre t path) {p : Path} (v : K) (hp : p ∈ tyreKeys path) :
    t.setParameter p v = .ok (updTyre p v t) := by
  have hpre : t.path.isPrefixOf p = true := by rw [w.path]; exact isPrefixOf_under hp
  have nd := tyreNames_nodup
  have nd1 : ((tyreOwnNames ++ tyreModelNames).map String.toList).Nodup := by decide +kernel
  rw [Tyre.setParameter, if_pos hpre]
  rcases mem_under_append.1 hp with h | h
  · have nb := under_disjoint nd h
    rcases mem_under_append.1 h with h | h
    · have nm := under_disjoint nd1 h
      rw [w.path, setIn_some w.own (by decide +kernel) v h]
      simp only [updTyre, w.path, updT_of_notMem w.base v nb, updT_of_notMem w.model v nm]
    · have no : p ∉ under path tyreOwnNames := fun h' => under_disjoint nd1 h' h
      rw [w.path, setIn_none w.own v no]
      simp only [setIn_some w.model (by decide +kernel) v h, updTyre, w.path, updT_of_notMem w.base v nb,
        updT_of_notMem w.own v no]
  · have no : p ∉ under path tyreOwnNames := fun h' =>
      under_disjoint nd (mem_under_append.2 (.inl h')) h
    have nm : p ∉ under path tyreModelNames := fun h' =>
      under_disjoint nd (mem_under_append.2 (.inr h')) h
    rw [w.path, setIn_none w.own v no]
    simp only [setIn_none w.model v nm, setIn_some w.base (by decide +kernel) v h, updTyre, w.path,
      updT_of_notMem w.own v no, updT_of_notMem w.model v nm]

theorem setTyre_notMem {t : Tyre K} {path : Path} (w : WfTyre t path) {p : Path} (v : K) (hp : p ∉ tyreKeys path) :
    t.setParameter p v = .throw := by
  have h : p ∉ under path tyreOwnNames ∧ p ∉ under path tyreModelNames ∧ p ∉ under path tyreBaseNames := by
    simp only [tyreKeys, mem_under_append, not_or] at hp; exact ⟨hp.1.1, hp.1.2, hp.2⟩
  rw [Tyre.setParameter, w.path]
  split_ifs
  · simp only [setIn_none w.own v h.1, setIn_none w.model v h.2.1, setIn_none w.base v h.2.2]
  · rfl

theorem updTyre_notMem {t : Tyre K} {path : Path} (w : WfTyre t path) {p : Path} (v : K) (hp : p ∉ tyreKeys path) :
    updTyre p v t = t := by
  have h : p ∉ under path tyreOwnNames ∧ p ∉ under path tyreModelNames ∧ p ∉ under path tyreBaseNames := by
    simp only [tyreKeys, mem_under_append, not_or] at hp; exact ⟨hp.1.1, hp.1.2, hp.2⟩
  simp only [updTyre, w.path, updT_of_notMem w.own v h.1, updT_of_notMem w.model v h.2.1,
    updT_of_notMem w.base v h.2.2]
  rw [← w.path]

/-- The engine names of an axle. -/
def engineNamesOf : Bool → List String
  | true => engineNames
  | false => []

/-- An axle as constructed and as every call leaves it. -/
structure WfAxle [Field K] (a : Axle K) (pw : Bool) (path tyrePath : Path) : Prop where
  path : a.path = path
  powered : a.powered = pw
  own : Named a.own (axleNames pw)
  brakes : Named a.brakes brakeNames
  engine : Named a.engine (engineNamesOf pw)
  boost : Named a.boost (engineNamesOf pw)
  left : WfTyre a.left tyrePath
  right : WfTyre a.right tyrePath
  yLeft : a.yLeft = -(1 / 2) * member a.own "track".toList
  yRight : a.yRight = 1 / 2 * member a.own "track".toList

/-- The axle after the call. -/
def updAxle [Field K] (p : Path) (v : K) (a : Axle K) : Axle K :=
  Axle.placeTyres
    { a with
      own := updT a.path p v a.own
      brakes := updT (a.path ++ "brakes/".toList) p v a.brakes
      engine := updT (a.path ++ "engine/".toList) p v a.engine
      boost := updT (a.path ++ "boost/".toList) p v a.boost
      left := updTyre p v a.left
      right := updTyre p v a.right }

/-- The paths of the axle itself, its brakes, engine and boost. -/
def axleOnly (powered : Bool) (path : Path) : List Path :=
  under path (axleNames powered) ++ under (path ++ "brakes/".toList) brakeNames
    ++ under (path ++ "engine/".toList) (engineNamesOf powered)
    ++ under (path ++ "boost/".toList) (engineNamesOf powered)

/-- All the paths of an axle. -/
def axleKeys (powered : Bool) (path tyrePath : Path) : List Path := axleOnly powered path ++ tyreKeys tyrePath

theorem append_under (base pre : Path) (ns : List String) :
    under (base ++ pre) ns = (under pre ns).map (base ++ ·) := by
  simp [under, List.append_assoc, Function.comp_def]

theorem under_nil (base : Path) (ns : List String) : under base ns = (under [] ns).map (base ++ ·) := by
  simp [under, Function.comp_def]

theorem mem_map_append {base p : Path} {l : List Path} : base ++ p ∈ l.map (base ++ ·) ↔ p ∈ l := by
  simp

theorem axleOnly_eq (powered : Bool) (path : Path) :
    axleOnly powered path = (axleOnly powered []).map (path ++ ·) := by
  simp only [axleOnly, List.map_append, append_under, ← under_nil, List.nil_append]

theorem prefix_append (base q p : Path) : (base ++ q).isPrefixOf (base ++ p) = q.isPrefixOf p := by
  induction base with
  | nil => rfl
  | cons c b ih => simpa [List.isPrefixOf] using ih

/-- A name of the axle's own table is in no other table. -/
theorem own_facts (powered : Bool) : ∀ q ∈ under [] (axleNames powered),
    q ∉ under "brakes/".toList brakeNames ∧ q ∉ under "engine/".toList (engineNamesOf powered) ∧
      q ∉ under "boost/".toList (engineNamesOf powered) := by
  cases powered <;> decide +kernel

theorem brake_facts (powered : Bool) : ∀ q ∈ under "brakes/".toList brakeNames,
    q ∉ under [] (axleNames powered) ∧ q ∉ under "engine/".toList (engineNamesOf powered) ∧
      q ∉ under "boost/".toList (engineNamesOf powered) := by
  cases powered <;> decide +kernel

theorem engine_facts (powered : Bool) : ∀ q ∈ under "engine/".toList (engineNamesOf powered),
    powered = true ∧ "brakes/".toList.isPrefixOf q = false ∧
      q ∉ under [] (axleNames powered) ∧ q ∉ under "brakes/".toList brakeNames ∧
      q ∉ under "boost/".toList (engineNamesOf powered) := by
  cases powered <;> decide +kernel

theorem boost_facts (powered : Bool) : ∀ q ∈ under "boost/".toList (engineNamesOf powered),
    powered = true ∧ "brakes/".toList.isPrefixOf q = false ∧ "engine/".toList.isPrefixOf q = false ∧
      q ∉ under [] (axleNames powered) ∧ q ∉ under "brakes/".toList brakeNames ∧
      q ∉ under "engine/".toList (engineNamesOf powered) := by
  cases powered <;> decide +kernel

theorem mem_under_base {base q : Path} {ns : List String} : base ++ q ∈ under base ns ↔ q ∈ under [] ns := by
  rw [under_nil base]; exact mem_map_append

theorem mem_under_sub {base pre q : Path} {ns : List String} :
    base ++ q ∈ under (base ++ pre) ns ↔ q ∈ under pre ns := by
  rw [append_under]; exact mem_map_append

theorem axle_eta [Field K] {a : Axle K} {powered : Bool} {path tp : Path} (w : WfAxle a powered path tp)
    {p : Path} (v : K) (hp : p ∉ axleKeys powered path tp) : updAxle p v a = a := by
  simp only [axleKeys, axleOnly, List.mem_append, not_or] at hp
  obtain ⟨⟨⟨⟨h1, h2⟩, h3⟩, h4⟩, h5⟩ := hp
  simp only [updAxle, w.path, updT_of_notMem w.own v h1, updT_of_notMem w.brakes v h2,
    updT_of_notMem w.engine v h3, updT_of_notMem w.boost v h4, updTyre_notMem w.left v h5,
    updTyre_notMem w.right v h5]
  simp only [Axle.placeTyres, ← w.yLeft, ← w.yRight]
  rw [← w.path]

theorem setTyres_notPrefix [Field K] {a : Axle K} {powered : Bool} {path tp : Path} (w : WfAxle a powered path tp)
    {p : Path} (v : K) (hpre : tp.isPrefixOf p = false) : a.setTyres p v = .ok (a, false) := by
  rw [Axle.setTyres, w.left.path, w.right.path, if_pos rfl, hpre]; rfl

theorem setTyres_mem [Field K] {a : Axle K} {powered : Bool} {path tp : Path} (w : WfAxle a powered path tp)
    {p : Path} (v : K) (hp : p ∈ tyreKeys tp) :
    a.setTyres p v = .ok ({ a with left := updTyre p v a.left, right := updTyre p v a.right }, true) := by
  rw [Axle.setTyres, w.left.path, w.right.path, if_pos rfl, if_pos (isPrefixOf_under hp), setTyre_mem w.left v hp,
    setTyre_mem w.right v hp]
  rfl

/-- An axle that knows the parameter: the entries with that path take the value, and nothing else changes. -/
theorem setAxle_mem [Field K] {a : Axle K} {powered : Bool} {path tp : Path} (w : WfAxle a powered path tp)
    (hd : ∀ q ∈ axleOnly powered path, q ∉ tyreKeys tp ∧ tp.isPrefixOf q = false)
    (ht : ∀ q ∈ tyreKeys tp, path.isPrefixOf q = false)
    {p : Path} (v : K) (hp : p ∈ axleKeys powered path tp) :
    a.setParameter p v = .ok (updAxle p v a, true) := by
  rcases List.mem_append.1 hp with h | h
  · have h5 := (hd p h).1
    rw [axleOnly_eq] at h
    obtain ⟨q, hq, rfl⟩ := List.mem_map.1 h
    have hpre : a.path.isPrefixOf (path ++ q) = true := by
      rw [w.path]; simp [List.isPrefixOf_iff_prefix]
    rw [Axle.setParameter, if_pos hpre, w.path, w.powered]
    simp only [prefix_append]
    simp only [axleOnly, List.nil_append, List.mem_append] at hq
    rcases hq with ((hq | hq) | hq) | hq
    · obtain ⟨n2, n3, n4⟩ := own_facts powered q hq
      rw [setIn_some w.own (by cases powered <;> decide +kernel) v (mem_under_base.2 hq)]
      simp only [updAxle, w.path, w.powered, updT_of_notMem w.brakes v (mt mem_under_sub.1 n2),
        updT_of_notMem w.engine v (mt mem_under_sub.1 n3), updT_of_notMem w.boost v (mt mem_under_sub.1 n4),
        updTyre_notMem w.left v h5, updTyre_notMem w.right v h5]
    · obtain ⟨n1, n3, n4⟩ := brake_facts powered q hq
      rw [setIn_none w.own v (mt mem_under_base.1 n1)]
      simp only [isPrefixOf_under hq, if_true, setOrThrow,
        setIn_some w.brakes (by decide +kernel) v (mem_under_sub.2 hq), Res.bind_ok]
      simp only [updAxle, w.path, w.powered, updT_of_notMem w.own v (mt mem_under_base.1 n1),
        updT_of_notMem w.engine v (mt mem_under_sub.1 n3), updT_of_notMem w.boost v (mt mem_under_sub.1 n4),
        updTyre_notMem w.left v h5, updTyre_notMem w.right v h5]
      simp only [Axle.placeTyres, ← w.yLeft, ← w.yRight]
    · obtain ⟨hpow, b, n1, n2, n4⟩ := engine_facts powered q hq
      rw [setIn_none w.own v (mt mem_under_base.1 n1)]
      have nd : ((engineNamesOf powered).map String.toList).Nodup := by cases powered <;> decide +kernel
      simp only [b, hpow, isPrefixOf_under hq, if_true, setOrThrow, Bool.and_self, Bool.false_eq_true, if_false,
        setIn_some w.engine nd v (mem_under_sub.2 hq), Res.bind_ok]
      simp only [updAxle, w.path, w.powered, hpow, updT_of_notMem w.own v (mt mem_under_base.1 n1),
        updT_of_notMem w.brakes v (mt mem_under_sub.1 n2), updT_of_notMem w.boost v (mt mem_under_sub.1 n4),
        updTyre_notMem w.left v h5, updTyre_notMem w.right v h5]
      simp only [Axle.placeTyres, ← w.yLeft, ← w.yRight]
    · obtain ⟨hpow, b, e, n1, n2, n3⟩ := boost_facts powered q hq
      rw [setIn_none w.own v (mt mem_under_base.1 n1)]
      have nd : ((engineNamesOf powered).map String.toList).Nodup := by cases powered <;> decide +kernel
      simp only [b, e, hpow, isPrefixOf_under hq, if_true, setOrThrow, Bool.and_self, Bool.and_false,
        Bool.false_eq_true, if_false, setIn_some w.boost nd v (mem_under_sub.2 hq), Res.bind_ok]
      simp only [updAxle, w.path, w.powered, hpow, updT_of_notMem w.own v (mt mem_under_base.1 n1),
        updT_of_notMem w.brakes v (mt mem_under_sub.1 n2), updT_of_notMem w.engine v (mt mem_under_sub.1 n3),
        updTyre_notMem w.left v h5, updTyre_notMem w.right v h5]
      simp only [Axle.placeTyres, ← w.yLeft, ← w.yRight]
  · have hno : p ∉ axleOnly powered path := fun h' => (hd p h').1 h
    simp only [axleOnly, List.mem_append, not_or] at hno
    obtain ⟨⟨⟨n1, n2⟩, n3⟩, n4⟩ := hno
    rw [Axle.setParameter, w.path, ht p h, if_neg (by simp), setTyres_mem w v h]
    simp only [updAxle, w.path, updT_of_notMem w.own v n1, updT_of_notMem w.brakes v n2,
      updT_of_notMem w.engine v n3, updT_of_notMem w.boost v n4]
    simp only [Axle.placeTyres, ← w.yLeft, ← w.yRight]

/-- An axle that does not know the parameter either throws or says that it was not found. -/
theorem setAxle_notMem [Field K] {a : Axle K} {powered : Bool} {path tp : Path} (w : WfAxle a powered path tp)
    {p : Path} (v : K) (hp : p ∉ axleKeys powered path tp) :
    a.setParameter p v = .throw ∨ a.setParameter p v = .ok (a, false) := by
  simp only [axleKeys, axleOnly, List.mem_append, not_or] at hp
  obtain ⟨⟨⟨⟨n1, n2⟩, n3⟩, n4⟩, n5⟩ := hp
  have ht : a.setTyres p v = .throw ∨ a.setTyres p v = .ok (a, false) := by
    rw [Axle.setTyres, w.left.path, w.right.path, if_pos rfl, setTyre_notMem w.left v n5]
    split_ifs
    · exact .inl rfl
    · exact .inr rfl
  rw [Axle.setParameter, w.path, w.powered, setIn_none w.own v n1]
  simp only [setOrThrow, setIn_none w.brakes v n2, setIn_none w.engine v n3, setIn_none w.boost v n4,
    Res.bind_throw]
  split_ifs <;> first | exact ht | exact .inl rfl

/-- An axle to whose paths the parameter does not belong says that it was not found. -/
theorem setAxle_notPrefix [Field K] {a : Axle K} {powered : Bool} {path tp : Path} (w : WfAxle a powered path tp)
    {p : Path} (v : K) (h1 : path.isPrefixOf p = false) (h2 : tp.isPrefixOf p = false) :
    a.setParameter p v = .ok (a, false) := by
  rw [Axle.setParameter, w.path, h1, if_neg (by simp), setTyres_notPrefix w v h2]

/-- The car as constructed and as every call leaves it. -/
structure WfCar [Field K] (c : Car K) : Prop where
  own : Named c.own chassisOwnNames
  base : Named c.base chassisBaseNames
  extra : Named c.extra extraNames
  front : WfAxle c.front false "vehicle/front-axle/".toList "vehicle/front-tire/".toList
  rear : WfAxle c.rear true "vehicle/rear-axle/".toList "vehicle/rear-tire/".toList
  frontOrigin : c.frontOrigin = (member c.own "front_axle/x".toList, member c.own "front_axle/y".toList,
      member c.own "front_axle/z".toList)
  rearOrigin : c.rearOrigin = (member c.own "rear_axle/x".toList, member c.own "rear_axle/y".toList,
      member c.own "rear_axle/z".toList)

/-- The car after the call. -/
def updCar [Field K] (p : Path) (v : K) (c : Car K) : Car K :=
  Car.placeAxles
    { c with
      own := updT chassisPath p v c.own
      base := updT chassisPath p v c.base
      extra := c.extra.map (updE p v)
      front := updAxle p v c.front
      rear := updAxle p v c.rear }

/-- The paths of the front and of the rear axle. -/
def frontKeys : List Path := axleKeys false "vehicle/front-axle/".toList "vehicle/front-tire/".toList
@[inherit_doc frontKeys]
def rearKeys : List Path := axleKeys true "vehicle/rear-axle/".toList "vehicle/rear-tire/".toList

/-- The paths of the wind. -/
def extraKeys : List Path := extraNames.map String.toList

/-- All the paths of the car, by the object that holds them. -/
def carKeys : List Path :=
  under chassisPath chassisOwnNames ++ under chassisPath chassisBaseNames ++ extraKeys ++ frontKeys ++ rearKeys

theorem carKeys_documented (p : Path) : p ∈ carKeys ↔ p ∈ Spec.documented := by
  have h1 : ∀ p ∈ carKeys, p ∈ Spec.documented := by decide +kernel
  have h2 : ∀ p ∈ Spec.documented, p ∈ carKeys := by decide +kernel
  exact ⟨h1 p, h2 p⟩

theorem chassis_own_facts : ∀ q ∈ under chassisPath chassisOwnNames,
    q ∉ under chassisPath chassisBaseNames ∧ q ∉ extraKeys ∧ q ∉ frontKeys ∧ q ∉ rearKeys := by
  decide +kernel

theorem chassis_base_facts : ∀ q ∈ under chassisPath chassisBaseNames,
    q ∉ under chassisPath chassisOwnNames ∧ q ∉ extraKeys ∧ q ∉ frontKeys ∧ q ∉ rearKeys := by
  decide +kernel

theorem extra_facts : ∀ q ∈ extraKeys, chassisPath.isPrefixOf q = true ∧
    q ∉ under chassisPath chassisOwnNames ∧ q ∉ under chassisPath chassisBaseNames ∧ q ∉ frontKeys ∧
    q ∉ rearKeys := by
  decide +kernel

theorem front_facts : ∀ q ∈ frontKeys, chassisPath.isPrefixOf q = false ∧
    q ∉ under chassisPath chassisOwnNames ∧ q ∉ under chassisPath chassisBaseNames ∧ q ∉ extraKeys ∧
    q ∉ rearKeys := by
  decide +kernel

theorem rear_facts : ∀ q ∈ rearKeys, chassisPath.isPrefixOf q = false ∧
    q ∉ under chassisPath chassisOwnNames ∧ q ∉ under chassisPath chassisBaseNames ∧ q ∉ extraKeys ∧
    q ∉ frontKeys ∧ "vehicle/front-axle/".toList.isPrefixOf q = false ∧
    "vehicle/front-tire/".toList.isPrefixOf q = false := by
  decide +kernel

theorem front_only : ∀ q ∈ axleOnly false "vehicle/front-axle/".toList,
    q ∉ tyreKeys "vehicle/front-tire/".toList ∧ "vehicle/front-tire/".toList.isPrefixOf q = false := by
  decide +kernel

theorem front_tyre : ∀ q ∈ tyreKeys "vehicle/front-tire/".toList,
    "vehicle/front-axle/".toList.isPrefixOf q = false := by
  decide +kernel

theorem rear_only : ∀ q ∈ axleOnly true "vehicle/rear-axle/".toList,
    q ∉ tyreKeys "vehicle/rear-tire/".toList ∧ "vehicle/rear-tire/".toList.isPrefixOf q = false := by
  decide +kernel

theorem rear_tyre : ∀ q ∈ tyreKeys "vehicle/rear-tire/".toList,
    "vehicle/rear-axle/".toList.isPrefixOf q = false := by
  decide +kernel

/-- The car that knows the parameter. -/
theorem setCar_mem [Field K] {c : Car K} (w : WfCar c) {p : Path} (v : K) (hp : p ∈ carKeys) :
    c.setParameter p v = .ok (updCar p v c) := by
  have he : ∀ {q : Path}, q ∉ extraKeys → q ∉ c.extra.map (·.name) := fun h => by rw [w.extra]; exact h
  simp only [carKeys, List.mem_append] at hp
  rcases hp with (((hp | hp) | hp) | hp) | hp
  · obtain ⟨n2, n3, n4, n5⟩ := chassis_own_facts p hp
    rw [Car.setParameter, if_pos (isPrefixOf_under hp), setIn_some w.own (by decide +kernel) v hp]
    simp only [updCar, updT_of_notMem w.base v n2, updE_of_notMem v (he n3), axle_eta w.front v n4,
      axle_eta w.rear v n5]
  · obtain ⟨n1, n3, n4, n5⟩ := chassis_base_facts p hp
    rw [Car.setParameter, if_pos (isPrefixOf_under hp), setIn_none w.own v n1]
    simp only [Car.setBase, isPrefixOf_under hp, if_true, setIn_some w.base (by decide +kernel) v hp]
    simp only [updCar, updT_of_notMem w.own v n1, updE_of_notMem v (he n3), axle_eta w.front v n4,
      axle_eta w.rear v n5, Car.placeAxles, ← w.frontOrigin, ← w.rearOrigin]
  · obtain ⟨hpre, n1, n2, n4, n5⟩ := extra_facts p hp
    have nd : (c.extra.map (·.name)).Nodup := by rw [w.extra]; decide +kernel
    have hm : p ∈ c.extra.map (·.name) := by rw [w.extra]; exact hp
    rw [Car.setParameter, if_pos hpre, setIn_none w.own v n1]
    simp only [Car.setBase, hpre, if_true, setIn_none w.base v n2, setExtra_some nd hm]
    simp only [updCar, updT_of_notMem w.own v n1, updT_of_notMem w.base v n2, axle_eta w.front v n4,
      axle_eta w.rear v n5, Car.placeAxles, ← w.frontOrigin, ← w.rearOrigin]
  · obtain ⟨hpre, n1, n2, n3, n5⟩ := front_facts p hp
    rw [Car.setParameter, hpre, if_neg (by simp), Car.setBase, hpre, if_neg (by simp),
      setAxle_mem w.front front_only front_tyre v hp]
    simp only [Res.bind_ok, if_true, updCar, updT_of_notMem w.own v n1, updT_of_notMem w.base v n2,
      updE_of_notMem v (he n3), axle_eta w.rear v n5, Car.placeAxles, ← w.frontOrigin, ← w.rearOrigin]
  · obtain ⟨hpre, n1, n2, n3, n4, hf, ht⟩ := rear_facts p hp
    rw [Car.setParameter, hpre, if_neg (by simp), Car.setBase, hpre, if_neg (by simp),
      setAxle_notPrefix w.front v hf ht]
    simp only [Res.bind_ok, Bool.false_eq_true, if_false, setAxle_mem w.rear rear_only rear_tyre v hp, if_true,
      updCar, updT_of_notMem w.own v n1, updT_of_notMem w.base v n2,
      updE_of_notMem v (he n3), axle_eta w.front v n4, Car.placeAxles, ← w.frontOrigin, ← w.rearOrigin]

/-- The car that does not know the parameter. -/
theorem setCar_notMem [Field K] {c : Car K} (w : WfCar c) {p : Path} (v : K) (hp : p ∉ carKeys) :
    c.setParameter p v = .throw := by
  simp only [carKeys, List.mem_append, not_or] at hp
  obtain ⟨⟨⟨⟨n1, n2⟩, n3⟩, n4⟩, n5⟩ := hp
  have he : setExtra c.extra p v = none := setExtra_none_iff.2 (by rw [w.extra]; exact n3)
  have hb : c.setBase p v = .throw := by
    rw [Car.setBase, setIn_none w.base v n2, he]
    split_ifs
    · rfl
    · rcases setAxle_notMem w.front v n4 with h | h <;> rw [h]
      · rfl
      · rcases setAxle_notMem w.rear v n5 with h | h <;> rw [h] <;> rfl
  rw [Car.setParameter, setIn_none w.own v n1, hb]
  split_ifs <;> rfl

theorem Named.upd {t : Table K} {ns : List String} (h : Named t ns) (base p : Path) (v : K) :
    Named (updT base p v t) ns := by
  unfold Named at h ⊢
  rw [← h, updT, List.map_map]
  refine List.map_congr_left fun e _ => ?_
  simp only [Function.comp, Routing.upd]
  split_ifs <;> rfl

theorem WfTyre.upd {t : Tyre K} {path : Path} (w : WfTyre t path) (p : Path) (v : K) :
    WfTyre (updTyre p v t) path :=
  ⟨w.path, w.own.upd _ _ _, w.model.upd _ _ _, w.base.upd _ _ _⟩

theorem WfAxle.upd [Field K] {a : Axle K} {powered : Bool} {path tp : Path} (w : WfAxle a powered path tp)
    (p : Path) (v : K) : WfAxle (updAxle p v a) powered path tp :=
  ⟨w.path, w.powered, w.own.upd _ _ _, w.brakes.upd _ _ _, w.engine.upd _ _ _, w.boost.upd _ _ _,
    w.left.upd _ _, w.right.upd _ _, rfl, rfl⟩

theorem WfCar.upd [Field K] {c : Car K} (w : WfCar c) (p : Path) (v : K) : WfCar (updCar p v c) where
  own := w.own.upd _ _ _
  base := w.base.upd _ _ _
  extra := by
    have h := w.extra
    unfold Named at h ⊢
    rw [← h]
    simp only [updCar, Car.placeAxles, List.map_map]
    refine List.map_congr_left fun e _ => ?_
    simp only [Function.comp, updE]
    split_ifs <;> rfl
  front := w.front.upd _ _
  rear := w.rear.upd _ _
  frontOrigin := rfl
  rearOrigin := rfl

theorem named_fresh (init : Path → K) (base : Path) (ns : List String) : Named (freshTable init base ns) ns := by
  simp [Named, freshTable, Function.comp_def]

theorem wf_freshTyre (init : Path → K) (path : Path) : WfTyre (freshTyre init path) path :=
  ⟨rfl, named_fresh _ _ _, named_fresh _ _ _, named_fresh _ _ _⟩

theorem wf_freshAxle [Field K] (init : Path → K) (powered : Bool) (path tp : Path) :
    WfAxle (freshAxle init powered path tp) powered path tp where
  path := rfl
  powered := rfl
  own := named_fresh _ _ _
  brakes := named_fresh _ _ _
  engine := by cases powered; exacts [rfl, named_fresh _ _ _]
  boost := by cases powered; exacts [rfl, named_fresh _ _ _]
  left := wf_freshTyre _ _
  right := wf_freshTyre _ _
  yLeft := rfl
  yRight := rfl

theorem wf_freshCar [Field K] (init : Path → K) : WfCar (freshCar init) :=
  ⟨named_fresh _ _ _, named_fresh _ _ _, named_fresh _ _ _, wf_freshAxle _ _ _ _, wf_freshAxle _ _ _ _, rfl, rfl⟩

theorem run_cons [Field K] {c : Car K} (w : WfCar c) (p : Path) (v : K) (h : List (Path × K)) :
    run c ((p, v) :: h) = run (if p ∈ carKeys then updCar p v c else c) h := by
  by_cases hp : p ∈ carKeys
  · rw [if_pos hp, run, setCar_mem w v hp]
  · rw [if_neg hp, run, setCar_notMem w v hp]

theorem wf_run [Field K] : ∀ {c : Car K} (_ : WfCar c) (h : List (Path × K)), WfCar (run c h)
  | _, w, [] => w
  | c, w, (p, v) :: h => by
    rw [run_cons w]
    split_ifs
    · exact wf_run (w.upd p v) h
    · exact wf_run w h

end Verif.Routing
