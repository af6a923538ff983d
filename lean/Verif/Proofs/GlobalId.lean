import Verif.Proofs.BuilderLists
import Verif.Spec.GlobalId
/- Helper lemmas: a builder puts every new global id into the model once. -/
namespace Verif

namespace Fld

/-- a description without global ids -/
def noGuid : Fld → Bool
  | .guid => false
  | .opt f => f.noGuid
  | .list f => f.noGuid
  | .idOr _ f => f.noGuid
  | .seq f g => f.noGuid && g.noGuid
  | .ent _ _ b _ => b.noGuid
  | _ => true

theorem guids_none : ∀ (f : Fld) (v : f.Val), f.noGuid = true → f.guids v = []
  | .ref _, _, _ => rfl
  | .real, _, _ => rfl
  | .int, _, _ => rfl
  | .int32, _, _ => rfl
  | .bool, _, _ => rfl
  | .str, _, _ => rfl
  | .guid, _, h => by cases h
  | .time, _, _ => rfl
  | .value, _, _ => rfl
  | .enum _, _, _ => rfl
  | .vec2, _, _ => rfl
  | .vec3, _, _ => rfl
  | .optDim _, _, _ => rfl
  | .opt f, .custom a, h => guids_none f a h
  | .opt _, .omitted, _ => rfl
  | .opt _, .inherited, _ => rfl
  | .list f, l, h => by
    show l.flatMap f.guids = []
    exact List.flatMap_eq_nil_iff.mpr fun a _ => guids_none f a h
  | .idOr _ _, .id _, _ => rfl
  | .idOr _ f, .custom a, h => guids_none f a h
  | .seq f g, (a, b), h => by
    have h := Bool.and_eq_true_iff.mp h
    show f.guids a ++ g.guids b = []
    rw [guids_none f a h.1, guids_none g b h.2]; rfl
  | .ent _ _ b _, v, h => guids_none b v h

/-- one global id at the front and none further on -/
def rooted : Fld → Bool
  | .guid => true
  | .seq f g => f.rooted && g.noGuid
  | .ent _ _ b _ => b.rooted
  | _ => false

/-- the first global id -/
def gid : (f : Fld) → f.Val → Option Guid
  | .guid, g => some g
  | .seq f _, v => f.gid v.1
  | .ent _ _ b _, v => b.gid v
  | _, _ => none

theorem guids_rooted : ∀ (f : Fld) (v : f.Val) {g : Guid}, f.rooted = true → f.gid v = some g → f.guids v = [g]
  | .guid, v, g, _, h => by cases h; rfl
  | .seq f f', (a, b), g, hr, h => by
    have hr := Bool.and_eq_true_iff.mp hr
    show f.guids a ++ f'.guids b = [g]
    rw [guids_rooted f a hr.1 h, guids_none f' b hr.2]; rfl
  | .ent _ _ b _, v, g, hr, h => guids_rooted b v hr h
  | .ref _, _, _, h, _ => by cases h
  | .real, _, _, h, _ => by cases h
  | .int, _, _, h, _ => by cases h
  | .int32, _, _, h, _ => by cases h
  | .bool, _, _, h, _ => by cases h
  | .str, _, _, h, _ => by cases h
  | .time, _, _, h, _ => by cases h
  | .value, _, _, h, _ => by cases h
  | .enum _, _, _, h, _ => by cases h
  | .vec2, _, _, h, _ => by cases h
  | .vec3, _, _, h, _ => by cases h
  | .optDim _, _, _, h, _ => by cases h
  | .opt _, _, _, h, _ => by cases h
  | .list _, _, _, h, _ => by cases h
  | .idOr _ _, _, _, h, _ => by cases h

end Fld

namespace Build
open Verif Schema Mapping DataMap

def matTables : List Mat := [.wall, .slab, .roof, .window, .wallType, .slabType, .roofType, .shade, .shadeType]

theorem mem_matTables (m : Mat) : m ∈ matTables := by cases m <;> decide

/-- the global ids of material relations not yet put into the model -/
def booked (sl : List Mat) (b : Book) : List Guid := sl.flatMap fun m => (b.mats m).map fun r => r.2.1.1.1

/-- the ids drawn so far are those in the model, those in the tables of the builder and the pending ones `P` -/
structure Owes (W : World) (sl : List Mat) (P : List Guid) (s : St) : Prop where
  sorted : Sorted s.data
  keys : ∀ m, ((s.book.mats m).map (·.1)).Nodup
  all : ∀ g, (facts Entity.guids s.data).count g + (booked sl s.book).count g + P.count g =
    ((List.range s.guids).map W.guid).count g

/-- what a computation does to the pending ids -/
structure Uses {α : Type} (W : World) (sl : List Mat) (x : B α) (P : List Guid) (Q : α → List Guid) : Prop where
  run : ∀ s a s', x s = .val (a, s') → Owes W sl P s → Owes W sl (Q a) s'

namespace Uses

variable {α β : Type} {W : World} {sl : List Mat} {P : List Guid}

theorem bind {x : B α} {f : α → B β} {Q : α → List Guid} {R : β → List Guid} (hx : Uses W sl x P Q)
    (hf : ∀ a, Uses W sl (f a) (Q a) R) : Uses W sl (x >>= f) P R := by
  constructor; intro s a s' h hs
  obtain ⟨b, s1, h1, h2⟩ := bind_val.mp h
  exact (hf b).run _ _ _ h2 (hx.run _ _ _ h1 hs)
theorem pure (a : α) {Q : α → List Guid} (h : Q a = P) : Uses W sl (Pure.pure a : B α) P Q := by
  constructor; intro s b s' e hs; cases e; rw [h]; exact hs
theorem pureSame (a : α) : Uses W sl (Pure.pure a : B α) P fun _ => P := pure a rfl
theorem look (f : DataMap → Ret α) : Uses W sl (look f) P fun _ => P := by
  constructor; intro s b s' e hs; rw [(look_val e).2]; exact hs
theorem unwrap (o : Option α) : Uses W sl (unwrap o) P fun _ => P := by
  constructor; intro s b s' e hs; rw [(unwrap_val e).2]; exact hs
theorem book : Uses W sl book P fun _ => P := by
  constructor; intro s b s' e hs; rw [(book_val e).2]; exact hs
theorem freshGuid : Uses W sl (freshGuid W) P fun g => g :: P := by
  constructor; intro s b s' e hs
  cases e
  refine ⟨hs.sorted, hs.keys, fun g => ?_⟩
  have := hs.all g
  simp only [List.range_succ, List.map_append, List.count_append, List.map_cons, List.map_nil, List.count_cons,
    List.count_nil] at this ⊢
  omega
theorem now : Uses W sl (now W) P fun _ => P := by
  constructor; intro s b s' e hs; cases e; exact ⟨hs.sorted, hs.keys, hs.all⟩
theorem walk (l : List Nat) : Uses W sl (walk W l) P fun _ => P := by
  constructor; intro s b s' e hs; cases e; exact ⟨hs.sorted, hs.keys, hs.all⟩
theorem say (e : Ev) : Uses W sl (say e) P fun _ => P := by
  constructor; intro s b s' e hs; cases e; exact ⟨hs.sorted, hs.keys, hs.all⟩
theorem update {f : Book → Book} (hf : ∀ b, (f b).mats = b.mats) : Uses W sl (update f) P fun _ => P := by
  constructor; intro s b s' e hs
  rw [update_val e]
  refine ⟨hs.sorted, fun m => ?_, fun g => ?_⟩
  · simp only [hf]; exact hs.keys m
  · have := hs.all g
    simp only [booked, hf] at this ⊢
    exact this
theorem new {k : Kind} {v : (row k).Val} {L : List Guid} (h : (row k).guids v = L) :
    Uses W sl (new k v) (L ++ P) fun _ => P := by
  constructor; intro s i s' e hs
  obtain ⟨rfl, hb, _⟩ := new_val e
  refine ⟨sorted_append hs.sorted hb _, hs.keys, fun g => ?_⟩
  have := hs.all g
  simp only [facts_append, facts_one, Entity.guids, h, List.count_append] at this ⊢
  omega
theorem newPlain {k : Kind} {v : (row k).Val} (h : (row k).noGuid = true) : Uses W sl (Build.new k v) P fun _ => P :=
  new (L := []) (Fld.guids_none _ v h)
theorem newRoot {k : Kind} {v : (row k).Val} {g : Guid} (h : (row k).rooted = true) (hg : (row k).gid v = some g) :
    Uses W sl (Build.new k v) (g :: P) fun _ => P :=
  new (L := [g]) (Fld.guids_rooted _ v h hg)
theorem newWall {e : Element} : Uses W sl (Build.new .Wall (wallV e)) (e.1.1.1.1 :: P) fun _ => P :=
  new (L := [e.1.1.1.1]) (by
    show (Fld.guids element e ++ []) = _
    rw [Fld.guids_rooted element e (g := e.1.1.1.1) rfl rfl]; rfl)
theorem setReprs (i : Nat) (l : List Nat) : Uses W sl (setReprs i l) P fun _ => P := by
  constructor; intro s b s' e hs
  unfold Build.setReprs at e
  split at e
  · rename_i d hd
    cases e
    unfold DataMap.modify at hd
    split at hd
    · cases hd
    · rename_i e he
      split at hd
      · rename_i v hv
        cases hd
        have hk : e = .known .ProductDefinitionShape v := by
          cases e with
          | dummy t => cases hv
          | known k w =>
            unfold Entity.downcast at hv
            simp only at hv
            split at hv
            · rename_i hk; subst hk; cases hv; rfl
            · cases hv
        refine ⟨sorted_put hs.sorted _ _, hs.keys, fun g => ?_⟩
        have hg : ∀ w, Entity.guids (.known .ProductDefinitionShape w) = [] := fun w => Fld.guids_none _ w rfl
        have h1 := facts_put Entity.guids hs.sorted he (by rw [hk]; exact hg _)
          (hg ((v.1, v.2.1, l) : Shape))
        have h2 := hs.all g
        rw [← h1] at h2
        exact h2
      · cases hd
  · cases e
theorem each {f : α → B Unit} (hf : ∀ a, Uses W sl (f a) P fun _ => P) : ∀ l, Uses W sl (each f l) P fun _ => P
  | [] => .pure _ rfl
  | a :: l => .bind (hf a) fun _ => each hf l
theorem eachIdx {f : Nat → α → B Unit} (hf : ∀ n a, Uses W sl (f n a) P fun _ => P) :
    ∀ n l, Uses W sl (eachIdx f n l) P fun _ => P
  | _, [] => .pure _ rfl
  | n, a :: l => .bind (hf n a) fun _ => eachIdx hf (n + 1) l
theorem mapB {f : α → B β} (hf : ∀ a, Uses W sl (f a) P fun _ => P) : ∀ l, Uses W sl (mapB f l) P fun _ => P
  | [] => .pure _ rfl
  | a :: l => .bind (hf a) fun _ => .bind (mapB hf l) fun _ => .pure _ rfl

end Uses

syntax "use1" : tactic
macro_rules | `(tactic| use1) => `(tactic| first
    | assumption
    | with_reducible apply Uses.bind
    | with_reducible apply Uses.look
    | with_reducible apply Uses.unwrap
    | with_reducible apply Uses.book
    | with_reducible apply Uses.freshGuid
    | with_reducible apply Uses.now
    | with_reducible apply Uses.walk
    | with_reducible apply Uses.say
    | with_reducible apply Uses.setReprs
    | with_reducible refine Uses.mapB ?_ _
    | with_reducible refine Uses.each ?_ _
    | with_reducible refine Uses.eachIdx ?_ _ _
    | exact Uses.update (fun _ => rfl)
    | exact Uses.newPlain rfl
    | exact Uses.newRoot rfl rfl
    | exact Uses.newWall
    | exact Uses.pure _ rfl
    | exact Uses.pureSame _
    | split
    | (intro _)
    | exact Uses.look _
    | apply Uses.bind)
macro "useup" : tactic => `(tactic| repeat' use1)

theorem uses_walkMap {α : Type} (W : World) (sl : List Mat) (m : List (Nat × α)) (P : List Guid) :
    Uses W sl (walkMap W m) P fun _ => P := by unfold walkMap; useup
macro_rules | `(tactic| use1) => `(tactic| with_reducible apply uses_walkMap)
theorem uses_rootNew (W : World) (sl : List Mat) (name : Str) (P : List Guid) :
    Uses W sl (rootNew W name) P fun r => r.1 :: P := by unfold rootNew; useup
macro_rules | `(tactic| use1) => `(tactic| with_reducible apply uses_rootNew)
theorem uses_rootOf (W : World) (sl : List Mat) (name : Str) (P : List Guid) :
    Uses W sl (rootOf W name) P fun r => r.1 :: P := by unfold rootOf; useup
macro_rules | `(tactic| use1) => `(tactic| with_reducible apply uses_rootOf)
theorem uses_relAggregates (W : World) (sl : List Mat) (name : Str) (parent : Nat) (children : List Nat) (P : List Guid) :
    Uses W sl (relAggregates W name parent children) P fun _ => P := by unfold relAggregates; useup
macro_rules | `(tactic| use1) => `(tactic| with_reducible apply uses_relAggregates)

/-! ### Material relations -/

theorem guids_mapSet_old {l : List (Nat × RelMat)} {mat : Nat} {r r' : RelMat} (h : mapGet l mat = some r)
    (hr : r'.1.1.1 = r.1.1.1) : (mapSet l mat r').map (fun x => x.2.1.1.1) = l.map fun x => x.2.1.1.1 := by
  induction l with
  | nil => cases h
  | cons x l ih =>
    obtain ⟨j, b⟩ := x
    simp only [mapGet] at h
    simp only [mapSet]
    split at h
    · rename_i hj
      cases h
      rw [if_pos hj, List.map_cons, List.map_cons, hr]
    · rename_i hj
      rw [if_neg hj, List.map_cons, List.map_cons, ih h]

theorem guids_mapSet_new {l : List (Nat × RelMat)} {mat : Nat} {r : RelMat} (h : mapGet l mat = none) :
    (mapSet l mat r).map (fun x => x.2.1.1.1) = l.map (fun x => x.2.1.1.1) ++ [r.1.1.1] := by
  induction l with
  | nil => rfl
  | cons x l ih =>
    obtain ⟨j, b⟩ := x
    simp only [mapGet] at h
    simp only [mapSet]
    split at h
    · cases h
    · rename_i hj
      rw [if_neg hj, List.map_cons, List.map_cons, ih h]; rfl

theorem booked_setAt (b : Book) (slot : Mat) (l : List (Nat × RelMat)) (L : List Guid) (g : Guid)
    (h : (l.map fun x => x.2.1.1.1) = ((b.mats slot).map fun x => x.2.1.1.1) ++ L) :
    (booked matTables { b with mats := setAt b.mats slot l }).count g = (booked matTables b).count g + L.count g := by
  have h1 : ∀ m, (List.map (fun x : Nat × RelMat => x.2.1.1.1) (setAt b.mats slot l m)).count g =
      ((b.mats m).map fun x => x.2.1.1.1).count g + if m = slot then L.count g else 0 := by
    intro m
    unfold setAt
    split
    · rename_i hm; rw [h, hm, List.count_append]
    · simp
  simp only [booked, matTables, List.flatMap_cons, List.flatMap_nil, List.count_append, h1, List.count_nil]
  cases slot <;> simp <;> omega

theorem uses_relMatNew (W : World) (sl : List Mat) (name : Str) (mat : Nat) (P : List Guid) :
    Uses W sl (relMatNew W name mat) P fun r => r.1.1.1 :: P := by unfold relMatNew; useup

theorem uses_relateMaterial (W : World) (slot : Mat) (suffix : Str) (mat id : Nat) (P : List Guid) :
    Uses W matTables (relateMaterial W slot suffix mat id) P fun _ => P := by
  constructor; intro s u s' h hs
  unfold relateMaterial at h
  obtain ⟨b, s1, h1, h2⟩ := bind_val.mp h
  rw [(book_val h1).1, (book_val h1).2] at h2
  clear h h1
  cases hg : mapGet (s.book.mats slot) mat with
  | some r =>
    simp only [hg] at h2
    obtain ⟨r', s2, h3, h4⟩ := bind_val.mp h2
    cases h3
    rw [update_val h4]
    refine ⟨hs.sorted, fun m => ?_, fun g => ?_⟩
    · show ((setAt s.book.mats slot _ m).map (·.1)).Nodup
      unfold setAt
      split
      · exact nodup_mapSet (hs.keys _) _ _
      · exact hs.keys m
    · have h5 := hs.all g
      have := booked_setAt s.book slot (mapSet (s.book.mats slot) mat (relMatPush r id)) [] g
        (by rw [List.append_nil]; exact guids_mapSet_old hg rfl)
      simp only [List.count_nil] at this
      show _ + (booked matTables { s.book with mats := setAt s.book.mats slot _ }).count g + _ = _
      rw [this]
      show _ = ((List.range s.guids).map W.guid).count g
      rw [← h5]; rfl
  | none =>
    simp only [hg] at h2
    obtain ⟨r', s2, h3, h4⟩ := bind_val.mp h2
    have hb : s2.book = s.book := ((plain_relMatNew ..).step _ _ _ h3).book
    have hs2 := (uses_relMatNew W matTables _ _ P).run _ _ _ h3 hs
    rw [update_val h4]
    refine ⟨hs2.sorted, fun m => ?_, fun g => ?_⟩
    · show ((setAt s2.book.mats slot _ m).map (·.1)).Nodup
      unfold setAt
      split
      · exact nodup_mapSet (hs2.keys _) _ _
      · exact hs2.keys m
    · have h5 := hs2.all g
      have := booked_setAt s2.book slot (mapSet (s2.book.mats slot) mat (relMatPush r' id)) [r'.1.1.1] g
        (guids_mapSet_new (by rw [hb]; exact hg))
      show _ + (booked matTables { s2.book with mats := setAt s2.book.mats slot _ }).count g + _ = _
      rw [this]
      show _ = ((List.range s2.guids).map W.guid).count g
      rw [← h5]
      simp only [List.count_cons, List.count_nil]
      omega
macro_rules | `(tactic| use1) => `(tactic| with_reducible apply uses_relateMaterial)

/-! ### Builder functions -/

theorem uses_axis3New (W : World) (p : V3) (P : List Guid) : Uses W matTables (axis3New p) P fun _ => P := by unfold axis3New; useup
macro_rules | `(tactic| use1) => `(tactic| with_reducible apply uses_axis3New)
theorem uses_axis2New (W : World) (p : V2) (P : List Guid) : Uses W matTables (axis2New p) P fun _ => P := by unfold axis2New; useup
macro_rules | `(tactic| use1) => `(tactic| with_reducible apply uses_axis2New)
theorem uses_addRepr (W : World) (s : Shape) (v : (row .ShapeRepresentation).Val) (P : List Guid) : Uses W matTables (addRepr s v) P fun _ => P := by unfold addRepr; useup
macro_rules | `(tactic| use1) => `(tactic| with_reducible apply uses_addRepr)
theorem uses_rectShape (W : World) (length height thickness : F64) (dir : V3) (P : List Guid) : Uses W matTables (rectShape length height thickness dir) P fun _ => P := by unfold rectShape; useup
macro_rules | `(tactic| use1) => `(tactic| with_reducible apply uses_rectShape)
theorem uses_curveShape (W : World) (points : Nat) (thickness : F64) (dir : V3) (sub : Nat) (P : List Guid) : Uses W matTables (curveShape points thickness dir sub) P fun _ => P := by unfold curveShape; useup
macro_rules | `(tactic| use1) => `(tactic| with_reducible apply uses_curveShape)
theorem uses_horizontalShape (W : World) (coords : List V2) (thickness : F64) (P : List Guid) : Uses W matTables (horizontalShape W coords thickness) P fun _ => P := by unfold horizontalShape; useup
macro_rules | `(tactic| use1) => `(tactic| with_reducible apply uses_horizontalShape)
theorem uses_verticalShape (W : World) (coords : List V2) (thickness : F64) (P : List Guid) : Uses W matTables (verticalShape W coords thickness) P fun _ => P := by unfold verticalShape; useup
macro_rules | `(tactic| use1) => `(tactic| with_reducible apply uses_verticalShape)
theorem uses_arbitraryShape (W : World) (coords : List V3) (thickness : F64) (dir : V3) (P : List Guid) : Uses W matTables (arbitraryShape W coords thickness dir) P fun _ => P := by unfold arbitraryShape; useup
macro_rules | `(tactic| use1) => `(tactic| with_reducible apply uses_arbitraryShape)
theorem uses_placementNew (W : World) (a : (row .Axis3D).Val) (P : List Guid) : Uses W matTables (placementNew a) P fun _ => P := by unfold placementNew; useup
macro_rules | `(tactic| use1) => `(tactic| with_reducible apply uses_placementNew)
theorem uses_placementRel (W : World) (a : (row .Axis3D).Val) (k : Kind) (i : Nat) (P : List Guid) : Uses W matTables (placementRel a k i) P fun _ => P := by unfold placementRel; useup
macro_rules | `(tactic| use1) => `(tactic| with_reducible apply uses_placementRel)
theorem uses_addMember (W : World) (p : Build.Part) (id : Nat) (P : List Guid) : Uses W matTables (addMember p id) P fun _ => P := by unfold addMember; useup
macro_rules | `(tactic| use1) => `(tactic| with_reducible apply uses_addMember)
theorem uses_addTyped (W : World) (p : Build.Part) (ty id : Nat) (P : List Guid) : Uses W matTables (addTyped p ty id) P fun _ => P := by unfold addTyped; useup
macro_rules | `(tactic| use1) => `(tactic| with_reducible apply uses_addTyped)
theorem uses_touchType (W : World) (p : Build.Part) (ty : Nat) (P : List Guid) : Uses W matTables (touchType p ty) P fun _ => P := by unfold touchType; useup
macro_rules | `(tactic| use1) => `(tactic| with_reducible apply uses_touchType)
theorem uses_freshType (W : World) (p : Build.Part) (ty : Nat) (P : List Guid) : Uses W matTables (freshType p ty) P fun _ => P := by unfold freshType; useup
macro_rules | `(tactic| use1) => `(tactic| with_reducible apply uses_freshType)
theorem uses_material (W : World) (name : Str) (P : List Guid) : Uses W matTables (material name) P fun _ => P := by unfold material; useup
macro_rules | `(tactic| use1) => `(tactic| with_reducible apply uses_material)
theorem uses_materialLayer (W : World) (name : Str) (layer : LayerVal) (P : List Guid) : Uses W matTables (materialLayer name layer) P fun _ => P := by unfold materialLayer; useup
macro_rules | `(tactic| use1) => `(tactic| with_reducible apply uses_materialLayer)
theorem uses_materialLayerSet (W : World) (layers : List Nat) (P : List Guid) : Uses W matTables (materialLayerSet layers) P fun _ => P := by unfold materialLayerSet; useup
macro_rules | `(tactic| use1) => `(tactic| with_reducible apply uses_materialLayerSet)
theorem uses_materialLayerSetUsage (W : World) (set : Nat) (dir : Fin eLayerSetDirectionEnum.length) (sense : Fin eDirectionSenseEnum.length) (offset : F64) (P : List Guid) : Uses W matTables (materialLayerSetUsage set dir sense offset) P fun _ => P := by unfold materialLayerSetUsage; useup
macro_rules | `(tactic| use1) => `(tactic| with_reducible apply uses_materialLayerSetUsage)
theorem uses_materialConstituent (W : World) (material' name : Str) (P : List Guid) : Uses W matTables (materialConstituent material' name) P fun _ => P := by unfold materialConstituent; useup
macro_rules | `(tactic| use1) => `(tactic| with_reducible apply uses_materialConstituent)
theorem uses_materialConstituentSet (W : World) (l : List Nat) (P : List Guid) : Uses W matTables (materialConstituentSet l) P fun _ => P := by unfold materialConstituentSet; useup
macro_rules | `(tactic| use1) => `(tactic| with_reducible apply uses_materialConstituentSet)
theorem uses_wallType (W : World) (mat : Nat) (name : Str) (e : Fin eWallTypeEnum.length) (P : List Guid) : Uses W matTables (wallType W mat name e) P fun _ => P := by unfold wallType; useup
macro_rules | `(tactic| use1) => `(tactic| with_reducible apply uses_wallType)
theorem uses_slabType (W : World) (mat : Nat) (name : Str) (e : Fin eSlabTypeEnum.length) (P : List Guid) : Uses W matTables (slabType W mat name e) P fun _ => P := by unfold slabType; useup
macro_rules | `(tactic| use1) => `(tactic| with_reducible apply uses_slabType)
theorem uses_roofType (W : World) (mat : Nat) (name : Str) (e : Fin eRoofTypeEnum.length) (P : List Guid) : Uses W matTables (roofType W mat name e) P fun _ => P := by unfold roofType; useup
macro_rules | `(tactic| use1) => `(tactic| with_reducible apply uses_roofType)
theorem uses_shadeType (W : World) (mat : Nat) (name : Str) (e : Fin eShadingDeviceTypeEnum.length) (P : List Guid) : Uses W matTables (shadeType W mat name e) P fun _ => P := by unfold shadeType; useup
macro_rules | `(tactic| use1) => `(tactic| with_reducible apply uses_shadeType)
theorem uses_windowType (W : World) (name : Str) (e : Fin eWindowTypeEnum.length) (p : Fin eWindowPartitioningTypeEnum.length) (P : List Guid) : Uses W matTables (windowType W name e p) P fun _ => P := by unfold windowType; useup
macro_rules | `(tactic| use1) => `(tactic| with_reducible apply uses_windowType)
theorem uses_spaceType (W : World) (name : Str) (e : Fin eSpaceTypeEnum.length) (P : List Guid) : Uses W matTables (spaceType W name e) P fun _ => P := by unfold spaceType; useup
macro_rules | `(tactic| use1) => `(tactic| with_reducible apply uses_spaceType)
theorem uses_placeThenShape (W : World) (name : Str) (pos : V3) (k : Kind) (host : Nat) (shape : Shape) (P : List Guid) :
    Uses W matTables (placeThenShape W name pos k host shape) P fun e => e.1.1.1.1 :: P := by unfold placeThenShape; useup
macro_rules | `(tactic| use1) => `(tactic| with_reducible apply uses_placeThenShape)
theorem uses_axisCurve (W : World) (tip : V3) (P : List Guid) : Uses W matTables (axisCurve tip) P fun _ => P := by unfold axisCurve; useup
macro_rules | `(tactic| use1) => `(tactic| with_reducible apply uses_axisCurve)
theorem uses_wall (W : World) (mat ty : Nat) (e : Element) (P : List Guid) :
    Uses W matTables (wall W mat ty e) (e.1.1.1.1 :: P) fun _ => P := by unfold wall; useup
macro_rules | `(tactic| use1) => `(tactic| with_reducible apply uses_wall)
theorem uses_verticalWall (W : World) (mat ty : Nat) (name : Str) (height length : F64) (placement : V3) (P : List Guid) : Uses W matTables (verticalWall W mat ty name height length placement) P fun _ => P := by unfold verticalWall; useup
macro_rules | `(tactic| use1) => `(tactic| with_reducible apply uses_verticalWall)
theorem uses_verticalArbitraryWall (W : World) (mat ty : Nat) (name : Str) (coords : List V2) (placement : V3) (P : List Guid) : Uses W matTables (verticalArbitraryWall W mat ty name coords placement) P fun _ => P := by unfold verticalArbitraryWall; useup
macro_rules | `(tactic| use1) => `(tactic| with_reducible apply uses_verticalArbitraryWall)
theorem uses_arbitraryWall (W : World) (mat ty : Nat) (name : Str) (coords : List V3) (dir placement : V3) (P : List Guid) : Uses W matTables (arbitraryWall W mat ty name coords dir placement) P fun _ => P := by unfold arbitraryWall; useup
macro_rules | `(tactic| use1) => `(tactic| with_reducible apply uses_arbitraryWall)
theorem uses_slab (W : World) (placement : V3) (name : Str) (shape : Shape) (mat ty : Nat) (P : List Guid) : Uses W matTables (slab W placement name shape mat ty) P fun _ => P := by unfold slab; useup
macro_rules | `(tactic| use1) => `(tactic| with_reducible apply uses_slab)
theorem uses_horizontalArbitrarySlab (W : World) (mat ty : Nat) (name : Str) (coords : List V2) (placement : V3) (P : List Guid) : Uses W matTables (horizontalArbitrarySlab W mat ty name coords placement) P fun _ => P := by unfold horizontalArbitrarySlab; useup
macro_rules | `(tactic| use1) => `(tactic| with_reducible apply uses_horizontalArbitrarySlab)
theorem uses_verticalSlab (W : World) (mat ty : Nat) (name : Str) (start end_ : V2) (height : F64) (placement : V3) (P : List Guid) : Uses W matTables (verticalSlab W mat ty name start end_ height placement) P fun _ => P := by unfold verticalSlab; useup
macro_rules | `(tactic| use1) => `(tactic| with_reducible apply uses_verticalSlab)
theorem uses_arbitrarySlab (W : World) (mat ty : Nat) (name : Str) (coords : List V3) (dir placement : V3) (P : List Guid) : Uses W matTables (arbitrarySlab W mat ty name coords dir placement) P fun _ => P := by unfold arbitrarySlab; useup
macro_rules | `(tactic| use1) => `(tactic| with_reducible apply uses_arbitrarySlab)
theorem uses_slabDirection (W : World) (slabId : Nat) (P : List Guid) : Uses W matTables (slabDirection slabId) P fun _ => P := by unfold slabDirection; useup
macro_rules | `(tactic| use1) => `(tactic| with_reducible apply uses_slabDirection)
theorem uses_roof (W : World) (mat ty : Nat) (name : Str) (coords : List V2) (placement : V3) (P : List Guid) : Uses W matTables (roof W mat ty name coords placement) P fun _ => P := by unfold roof; useup
macro_rules | `(tactic| use1) => `(tactic| with_reducible apply uses_roof)
theorem uses_shade (W : World) (mat ty : Nat) (name : Str) (height length : F64) (placement : V3) (P : List Guid) : Uses W matTables (shade W mat ty name height length placement) P fun _ => P := by unfold shade; useup
macro_rules | `(tactic| use1) => `(tactic| with_reducible apply uses_shade)
theorem uses_space (W : World) (ty : Nat) (name : Str) (coords : List V2) (height : F64) (placement : V3) (P : List Guid) : Uses W matTables (space W ty name coords height placement) P fun _ => P := by unfold space; useup
macro_rules | `(tactic| use1) => `(tactic| with_reducible apply uses_space)
theorem uses_hostThickness (W : World) (slot : Mat) (host : Nat) (P : List Guid) : Uses W matTables (hostThickness W slot host) P fun _ => P := by unfold hostThickness; useup
macro_rules | `(tactic| use1) => `(tactic| with_reducible apply uses_hostThickness)
theorem uses_shapeThenPlace (W : World) (name : Str) (a : (row .Axis3D).Val) (k : Kind) (host : Nat) (shape : Shape)
    (P : List Guid) : Uses W matTables (shapeThenPlace W name a k host shape) P fun e => e.1.1.1.1 :: P := by
  unfold shapeThenPlace; useup
macro_rules | `(tactic| use1) => `(tactic| with_reducible apply uses_shapeThenPlace)
theorem uses_wallOpening (W : World) (wallId : Nat) (name : Str) (height length : F64) (placement dir : V3) (P : List Guid) : Uses W matTables (wallOpening W wallId name height length placement dir) P fun _ => P := by unfold wallOpening; useup
macro_rules | `(tactic| use1) => `(tactic| with_reducible apply uses_wallOpening)
theorem uses_wallVerticalOpening (W : World) (wallId : Nat) (name : Str) (height length : F64) (placement : V3) (P : List Guid) : Uses W matTables (wallVerticalOpening W wallId name height length placement) P fun _ => P := by unfold wallVerticalOpening; useup
macro_rules | `(tactic| use1) => `(tactic| with_reducible apply uses_wallVerticalOpening)
theorem uses_slabOpening (W : World) (slabId : Nat) (name : Str) (shape : Shape) (placement : V3) (P : List Guid) : Uses W matTables (slabOpening W slabId name shape placement) P fun _ => P := by unfold slabOpening; useup
macro_rules | `(tactic| use1) => `(tactic| with_reducible apply uses_slabOpening)
theorem uses_slabRectOpening (W : World) (slabId : Nat) (name : Str) (height length : F64) (placement : V3) (P : List Guid) : Uses W matTables (slabRectOpening W slabId name height length placement) P fun _ => P := by unfold slabRectOpening; useup
macro_rules | `(tactic| use1) => `(tactic| with_reducible apply uses_slabRectOpening)
theorem uses_slabHorizontalOpening (W : World) (slabId : Nat) (name : Str) (coords : List V2) (P : List Guid) : Uses W matTables (slabHorizontalOpening W slabId name coords) P fun _ => P := by unfold slabHorizontalOpening; useup
macro_rules | `(tactic| use1) => `(tactic| with_reducible apply uses_slabHorizontalOpening)
theorem uses_slabArbitraryOpening (W : World) (slabId : Nat) (name : Str) (coords : List V3) (P : List Guid) : Uses W matTables (slabArbitraryOpening W slabId name coords) P fun _ => P := by unfold slabArbitraryOpening; useup
macro_rules | `(tactic| use1) => `(tactic| with_reducible apply uses_slabArbitraryOpening)
theorem uses_window (W : World) (mat ty opening : Nat) (name : Str) (shape : Shape) (placement : V3) (P : List Guid) : Uses W matTables (window W mat ty opening name shape placement) P fun _ => P := by unfold window; useup
macro_rules | `(tactic| use1) => `(tactic| with_reducible apply uses_window)
theorem uses_rectWindow (W : World) (mat ty opening : Nat) (name : Str) (height width : F64) (placement : V3) (thick : F64) (dir : V3) (P : List Guid) : Uses W matTables (rectWindow W mat ty opening name height width placement thick dir) P fun _ => P := by unfold rectWindow; useup
macro_rules | `(tactic| use1) => `(tactic| with_reducible apply uses_rectWindow)
theorem uses_wallWindow (W : World) (wallId mat ty : Nat) (name : Str) (height width : F64) (placement dir : V3) (P : List Guid) : Uses W matTables (wallWindow W wallId mat ty name height width placement dir) P fun _ => P := by unfold wallWindow; useup
macro_rules | `(tactic| use1) => `(tactic| with_reducible apply uses_wallWindow)
theorem uses_slabWindow (W : World) (slabId mat ty : Nat) (name : Str) (height width : F64) (placement : V3) (P : List Guid) : Uses W matTables (slabWindow W slabId mat ty name height width placement) P fun _ => P := by unfold slabWindow; useup
macro_rules | `(tactic| use1) => `(tactic| with_reducible apply uses_slabWindow)
theorem uses_slabHorizontalWindow (W : World) (slabId mat ty : Nat) (name : Str) (coords : List V2) (P : List Guid) : Uses W matTables (slabHorizontalWindow W slabId mat ty name coords) P fun _ => P := by unfold slabHorizontalWindow; useup
macro_rules | `(tactic| use1) => `(tactic| with_reducible apply uses_slabHorizontalWindow)
theorem uses_slabArbitraryWindow (W : World) (slabId mat ty : Nat) (name : Str) (coords : List V3) (P : List Guid) : Uses W matTables (slabArbitraryWindow W slabId mat ty name coords) P fun _ => P := by unfold slabArbitraryWindow; useup
macro_rules | `(tactic| use1) => `(tactic| with_reducible apply uses_slabArbitraryWindow)
theorem uses_transformNew (W : World) (t : Transform) (P : List Guid) : Uses W matTables (transformNew W t) P fun _ => P := by unfold transformNew; useup
macro_rules | `(tactic| use1) => `(tactic| with_reducible apply uses_transformNew)
theorem uses_identOf (W : World) (old : Nat) (P : List Guid) : Uses W matTables (identOf old) P fun _ => P := by unfold identOf; useup
macro_rules | `(tactic| use1) => `(tactic| with_reducible apply uses_identOf)
theorem uses_wrapRepr (W : World) (sub tr : Nat) (origin : V3) (keep : Bool) (old : Nat) (P : List Guid) : Uses W matTables (wrapRepr sub tr origin keep old) P fun _ => P := by unfold wrapRepr; useup
macro_rules | `(tactic| use1) => `(tactic| with_reducible apply uses_wrapRepr)
theorem uses_singleProperty (W : World) (p : Prop') (P : List Guid) : Uses W matTables (singleProperty p) P fun _ => P := by unfold singleProperty; useup
macro_rules | `(tactic| use1) => `(tactic| with_reducible apply uses_singleProperty)
theorem uses_propertySet (W : World) (name : Str) (props : List Nat) (P : List Guid) : Uses W matTables (propertySet W name props) P fun _ => P := by unfold propertySet; useup
macro_rules | `(tactic| use1) => `(tactic| with_reducible apply uses_propertySet)
theorem uses_relateProperties (W : World) (set obj : Nat) (P : List Guid) : Uses W matTables (relateProperties W set obj) P fun _ => P := by unfold relateProperties; useup
macro_rules | `(tactic| use1) => `(tactic| with_reducible apply uses_relateProperties)
theorem uses_wallProperties (W : World) (obj : Nat) (name : Str) (props : List Prop') (P : List Guid) : Uses W matTables (wallProperties W obj name props) P fun _ => P := by unfold wallProperties; useup
macro_rules | `(tactic| use1) => `(tactic| with_reducible apply uses_wallProperties)
theorem uses_lastSub (W : World) (P : List Guid) : Uses W matTables lastSub P fun _ => P := by unfold lastSub; useup
macro_rules | `(tactic| use1) => `(tactic| with_reducible apply uses_lastSub)
theorem uses_dropTypes (W : World) (p : Build.Part) (name : Str) (P : List Guid) : Uses W matTables (dropTypes W p name) P fun _ => P := by unfold dropTypes; useup
macro_rules | `(tactic| use1) => `(tactic| with_reducible apply uses_dropTypes)
theorem uses_dropVoids (W : World) (name : Str) (os : List (Nat × Nat)) (P : List Guid) : Uses W matTables (dropVoids W name os) P fun _ => P := by unfold dropVoids; useup
macro_rules | `(tactic| use1) => `(tactic| with_reducible apply uses_dropVoids)
theorem uses_dropFills (W : World) (name : Str) (os : List (Nat × Nat)) (P : List Guid) : Uses W matTables (dropFills W name os) P fun _ => P := by unfold dropFills; useup
macro_rules | `(tactic| use1) => `(tactic| with_reducible apply uses_dropFills)
theorem uses_dropMembers (W : World) (p : Build.Part) (P : List Guid) : Uses W matTables (dropMembers W p) P fun _ => P := by unfold dropMembers; useup
macro_rules | `(tactic| use1) => `(tactic| with_reducible apply uses_dropMembers)
theorem uses_dropStorey (W : World) (P : List Guid) : Uses W matTables (dropStorey W) P fun _ => P := by unfold dropStorey; useup
macro_rules | `(tactic| use1) => `(tactic| with_reducible apply uses_dropStorey)
theorem uses_runWallCmd (W : World) (host : Nat) (c : WallCmd) (P : List Guid) : Uses W matTables (runWallCmd W host c) P fun _ => P := by cases c <;> (unfold runWallCmd; useup)
macro_rules | `(tactic| use1) => `(tactic| with_reducible apply uses_runWallCmd)
theorem uses_runSlabCmd (W : World) (host : Nat) (c : SlabCmd) (P : List Guid) : Uses W matTables (runSlabCmd W host c) P fun _ => P := by cases c <;> (unfold runSlabCmd; useup)
macro_rules | `(tactic| use1) => `(tactic| with_reducible apply uses_runSlabCmd)
theorem uses_siUnit (W : World) (u : Fin eIfcUnitEnum.length) (n : Fin eIfcUnitName.length) (P : List Guid) : Uses W matTables (siUnit u n) P fun _ => P := by unfold siUnit; useup
macro_rules | `(tactic| use1) => `(tactic| with_reducible apply uses_siUnit)

theorem uses_storeyBuilder (W : World) (id : Nat) (P : List Guid) : Uses W matTables (storeyBuilder id) P fun _ => P := by
  unfold storeyBuilder; useup
macro_rules | `(tactic| use1) => `(tactic| with_reducible apply uses_storeyBuilder)
theorem uses_applyTransform (W : World) (k : Kind) (i : Nat) (t : Transform) (origin : V3) (keep : Bool) (P : List Guid) :
    Uses W matTables (applyTransform W k i t origin keep) P fun _ => P := by unfold applyTransform; useup
macro_rules | `(tactic| use1) => `(tactic| with_reducible apply uses_applyTransform)
theorem uses_builderTransform (W : World) (k : Kind) (i : Nat) (t : Transform) (origin : V3) (P : List Guid) :
    Uses W matTables (builderTransform W k i t origin) P fun _ => P := uses_applyTransform ..
macro_rules | `(tactic| use1) => `(tactic| with_reducible apply uses_builderTransform)
theorem uses_storeyTransform (W : World) (k : Kind) (i : Nat) (t : Transform) (P : List Guid) :
    Uses W matTables (storeyTransform W k i t) P fun _ => P := uses_applyTransform ..
macro_rules | `(tactic| use1) => `(tactic| with_reducible apply uses_storeyTransform)
theorem uses_hostOpenings (W : World) (host : Nat) (P : List Guid) : ∀ l, Uses W matTables (hostOpenings host l) P fun _ => P
  | [] => .pureSame _
  | (o, h) :: l => by
    have ih := uses_hostOpenings W host P l
    unfold hostOpenings
    split
    · exact .bind (.look _) fun _ => .bind ih fun _ => .pureSame _
    · exact ih
macro_rules | `(tactic| use1) => `(tactic| with_reducible apply uses_hostOpenings)
theorem uses_hostTransform (W : World) (k : Kind) (host : Nat) (t : Transform) (os : List (Nat × Nat)) (P : List Guid) :
    Uses W matTables (hostTransform W k host t os) P fun _ => P := by unfold hostTransform; useup
macro_rules | `(tactic| use1) => `(tactic| with_reducible apply uses_hostTransform)
theorem uses_runWall (W : World) (mat ty : Nat) {make : B Nat} {P : List Guid} (h : Uses W matTables make P fun _ => P)
    (cmds : List WallCmd) : Uses W matTables (runWall W mat ty make cmds) P fun _ => P := by unfold runWall; useup
theorem uses_runSlab (W : World) (mat ty : Nat) {make : B Nat} {P : List Guid} (h : Uses W matTables make P fun _ => P)
    (cmds : List SlabCmd) : Uses W matTables (runSlab W mat ty make cmds) P fun _ => P := by unfold runSlab; useup
theorem uses_runStoreyCmd (W : World) (c : StoreyCmd) (P : List Guid) :
    Uses W matTables (runStoreyCmd W c) P fun _ => P := by
  cases c <;> unfold runStoreyCmd
  case verticalWall => exact uses_runWall W _ _ (uses_verticalWall ..) _
  case verticalArbitraryWall => exact uses_runWall W _ _ (uses_verticalArbitraryWall ..) _
  case arbitraryWall => exact uses_runWall W _ _ (uses_arbitraryWall ..) _
  case horizontalArbitrarySlab => exact uses_runSlab W _ _ (uses_horizontalArbitrarySlab ..) _
  case verticalSlab => exact uses_runSlab W _ _ (uses_verticalSlab ..) _
  case arbitrarySlab => exact uses_runSlab W _ _ (uses_arbitrarySlab ..) _
  all_goals useup
macro_rules | `(tactic| use1) => `(tactic| with_reducible apply uses_runStoreyCmd)
theorem uses_runStorey (W : World) (sc : StoreyScript) (P : List Guid) :
    Uses W matTables (runStorey W sc) P fun _ => P := by unfold runStorey; useup
macro_rules | `(tactic| use1) => `(tactic| with_reducible apply uses_runStorey)
theorem uses_runBuilding (W : World) (sc : BuildingScript) (P : List Guid) :
    Uses W matTables (runBuilding W sc) P fun _ => P := by unfold runBuilding; useup
macro_rules | `(tactic| use1) => `(tactic| with_reducible apply uses_runBuilding)
theorem uses_runSite (W : World) (sc : SiteScript) (P : List Guid) :
    Uses W matTables (runSite W sc) P fun _ => P := by unfold runSite; useup
macro_rules | `(tactic| use1) => `(tactic| with_reducible apply uses_runSite)
theorem uses_projectNew (W : World) (sc : ProjectScript) (P : List Guid) :
    Uses W matTables (projectNew W sc) P fun _ => P := by unfold projectNew; useup

/-! ### The end -/

theorem uses_relations {W : World} {sl : List Mat} {P : List Guid} : ∀ (ms : List (Nat × RelMat)),
    Uses W sl (each (fun (m : Nat × RelMat) => do let _ ← new .RelAssociatesMaterial m.2) ms)
      (ms.map (fun r => r.2.1.1.1) ++ P) fun _ => P
  | [] => .pureSame _
  | m :: ms => .bind (Q := fun _ => ms.map (fun r => r.2.1.1.1) ++ P)
      (.bind (Q := fun _ => ms.map (fun r => r.2.1.1.1) ++ P) (.newRoot rfl rfl) fun _ => .pureSame _)
      fun _ => uses_relations ms

/-- the relations of a table leave the builder for the model -/
theorem owes_dropMaterials {W : World} (hW : W.Fair) {slot : Mat} {sl : List Mat} {s s' : St} {u : Unit}
    (h : dropMaterials W slot s = .val (u, s')) (hs : Owes W (slot :: sl) [] s) : Owes W sl [] s' := by
  unfold dropMaterials at h
  obtain ⟨b, s1, h1, h2⟩ := bind_val.mp h
  rw [(book_val h1).1, (book_val h1).2] at h2
  obtain ⟨ms, s2, h3, h4⟩ := bind_val.mp h2
  have hp := (walkMap_val hW (hs.keys slot) h3).1
  have hs2 := (uses_walkMap W (slot :: sl) (s.book.mats slot) []).run _ _ _ h3 hs
  have hb := (walkMap_val hW (hs.keys slot) h3).2.2.1
  refine (uses_relations (P := []) ms).run _ _ _ h4 ⟨hs2.sorted, hs2.keys, fun g => ?_⟩
  rw [← hs2.all g]
  have : (ms.map fun r => r.2.1.1.1).count g = ((s2.book.mats slot).map fun r => r.2.1.1.1).count g := by
    rw [hb]; exact (hp.map _).count_eq g
  simp only [List.append_nil, this, booked, List.flatMap_cons, List.count_append, List.count_nil]
  omega

theorem owes_build {W : World} (hW : W.Fair) {s s' : St} {u : Unit} (h : build W s = .val (u, s'))
    (hs : Owes W matTables [] s) : Owes W [] [] s' := by
  unfold build at h
  obtain ⟨_, s1, h1, h⟩ := bind_val.mp h
  have hs := owes_dropMaterials hW h1 hs
  obtain ⟨_, s2, h2, h⟩ := bind_val.mp h
  have hs := owes_dropMaterials hW h2 hs
  obtain ⟨_, s3, h3, h⟩ := bind_val.mp h
  have hs := owes_dropMaterials hW h3 hs
  obtain ⟨_, s4, h4, h⟩ := bind_val.mp h
  have hs := owes_dropMaterials hW h4 hs
  obtain ⟨_, s5, h5, h⟩ := bind_val.mp h
  have hs := owes_dropMaterials hW h5 hs
  obtain ⟨_, s6, h6, h⟩ := bind_val.mp h
  have hs := owes_dropMaterials hW h6 hs
  obtain ⟨_, s7, h7, h⟩ := bind_val.mp h
  have hs := owes_dropMaterials hW h7 hs
  obtain ⟨_, s8, h8, h⟩ := bind_val.mp h
  have hs := owes_dropMaterials hW h8 hs
  obtain ⟨_, s9, h9, h⟩ := bind_val.mp h
  have hs := owes_dropMaterials hW h9 hs
  refine (Uses.bind .book fun b => .bind (.walk _) fun l => .bind (uses_relAggregates ..) fun _ => .pureSame _).run _ _ _ h hs

theorem owes_run {W : World} (hW : W.Fair) {sc : ProjectScript} {u : Unit} {s : St}
    (h : runProject W sc .start = .val (u, s)) : Owes W [] [] s := by
  unfold runProject at h
  obtain ⟨_, s1, h1, h⟩ := bind_val.mp h
  have hs : Owes W matTables [] .start := ⟨.nil, fun _ => .nil, fun g => rfl⟩
  have hs := (uses_projectNew W sc []).run _ _ _ h1 hs
  obtain ⟨_, s2, h2, h⟩ := bind_val.mp h
  have hs := (Uses.each (fun sc => uses_runSite W sc []) sc.sites).run _ _ _ h2 hs
  exact owes_build hW h hs

end Build
end Verif
