import Verif.Props.PBVolume

/-! C102: the polyhedron of a volume bounded by planes (`ToPolyhedron`). -/

set_option linter.unusedSectionVars false

namespace MGL
open V3
namespace PBVolume

noncomputable section
open Classical

/-- The point is on the plane with number `i`, with an error below `e`. -/
def Near (b : PBVolume ℝ) (e : ℝ) (i : ℕ) (x : V3 ℝ) : Prop := ∃ q, b.p[i]? = some q ∧ |dot q.normal x - q.d| < e

/-- The point is on the plane with number `i`. -/
def On (b : PBVolume ℝ) (i : ℕ) (x : V3 ℝ) : Prop := ∃ q, b.p[i]? = some q ∧ dot q.normal x = q.d

/-- A point of the volume that is on three of its planes. -/
def Good (b : PBVolume ℝ) (i j k : ℕ) (x : V3 ℝ) : Prop :=
  i ≠ j ∧ i ≠ k ∧ j ≠ k ∧ On b i x ∧ On b j x ∧ On b k x ∧ x ∈ Spec.halfSpaces b.planes

theorem Good.symm {b : PBVolume ℝ} (i j k : ℕ) (x : V3 ℝ) (h : Good b i j k x) : Good b j i k x ∧ Good b k i j x := by
  obtain ⟨h1, h2, h3, h4, h5, h6, h7⟩ := h
  exact ⟨⟨h1.symm, h3, h2, h5, h4, h6, h7⟩, ⟨h2.symm, h3.symm, h1, h6, h4, h5, h7⟩⟩

theorem Good.swap {b : PBVolume ℝ} {i j k : ℕ} {x : V3 ℝ} (h : Good b i j k x) : Good b i k j x := by
  obtain ⟨h1, h2, h3, h4, h5, h6, h7⟩ := h
  exact ⟨h2, h1, h3.symm, h4, h6, h5, h7⟩

theorem pairwise_get {b : PBVolume ℝ} (hp : b.p.Pairwise fun q r => q.isParallel r = false) {i j : ℕ} {q r : Plane ℝ}
    (hij : i < j) (hi : b.p[i]? = some q) (hj : b.p[j]? = some r) : q.isParallel r = false := by
  obtain ⟨h1, rfl⟩ := List.getElem?_eq_some_iff.1 hi
  obtain ⟨h2, rfl⟩ := List.getElem?_eq_some_iff.1 hj
  exact List.pairwise_iff_getElem.1 hp i j h1 h2 hij

theorem good_of_corner {b : PBVolume ℝ} (hp : b.p.Pairwise fun q r => q.isParallel r = false) (i j k : ℕ) (x : V3 ℝ)
    (hij : i < j) (hjk : j < k) (hk : k < b.p.length) (hc : b.cornerPoint i j k = some x)
    (he : b.containsExcept x i j k = true) : Good b i j k x := by
  unfold cornerPoint at hc
  rw [List.getElem?_eq_getElem (by omega : i < b.p.length), List.getElem?_eq_getElem (by omega : j < b.p.length),
    List.getElem?_eq_getElem hk] at hc
  simp only [Option.bind_eq_bind, Option.bind_some] at hc
  have gi := List.getElem?_eq_getElem (l := b.p) (by omega : i < b.p.length)
  have gj := List.getElem?_eq_getElem (l := b.p) (by omega : j < b.p.length)
  have gk := List.getElem?_eq_getElem (l := b.p) hk
  have hs := C64_intersects_planes_partial _ _ _ (pairwise_get hp hij gi gj) (pairwise_get hp (hij.trans hjk) gi gk)
    (pairwise_get hp hjk gj gk) x hc
  have hx : x ∈ ({x} : Set (V3 ℝ)) := rfl
  rw [← hs] at hx
  obtain ⟨⟨o1, o2⟩, o3⟩ := hx
  have o1' : dot b.p[i].normal x = b.p[i].d := o1
  have o2' : dot b.p[j].normal x = b.p[j].d := o2
  have o3' : dot b.p[k].normal x = b.p[k].d := o3
  refine ⟨by omega, by omega, by omega, ⟨_, gi, o1⟩, ⟨_, gj, o2⟩, ⟨_, gk, o3⟩, (mem_half b x).2 fun q hq => ?_⟩
  obtain ⟨l, hl⟩ := List.getElem?_of_mem hq
  by_cases e1 : l = i
  · subst e1; rw [gi] at hl; obtain rfl := Option.some.inj hl
    unfold Plane.signedDistance; linarith
  by_cases e2 : l = j
  · subst e2; rw [gj] at hl; obtain rfl := Option.some.inj hl
    unfold Plane.signedDistance; linarith
  by_cases e3 : l = k
  · subst e3; rw [gk] at hl; obtain rfl := Option.some.inj hl
    unfold Plane.signedDistance; linarith
  exact (containsExcept_iff b x i j k).1 he l q hl e1 e2 e3

theorem nearEq_iff (u x : V3 ℝ) : nearEq u x = true ↔ |u.x - x.x| < 1 / 1000 ∧ |u.y - x.y| < 1 / 1000 ∧ |u.z - x.z| < 1 / 1000 := by
  simp only [nearEq, Bool.and_eq_true, decide_eq_true_eq, absF_eq, and_assoc]

theorem near_of_nearEq {b : PBVolume ℝ} (hu : ∀ q ∈ b.p, lenSq q.normal = 1) {i : ℕ} {u x : V3 ℝ} (h : nearEq u x = true)
    (ho : On b i x) : Near b (1 / 500) i u := by
  obtain ⟨q, hq, hd⟩ := ho
  refine ⟨q, hq, ?_⟩
  have hn := hu q (List.mem_of_getElem? hq)
  obtain ⟨h1, h2, h3⟩ := (nearEq_iff u x).1 h
  have sq : ∀ t : ℝ, |t| < 1 / 1000 → t * t ≤ 1 / 1000000 := by
    intro t ht
    have := abs_mul_abs_self t
    nlinarith [abs_nonneg t]
  have hl := lagrange q.normal (u - x)
  have h0 : 0 ≤ lenSq (cross q.normal (u - x)) := lenSq_nonneg _
  rw [hn] at hl
  have hd2 : lenSq (u - x) ≤ 3 / 1000000 := by
    have := sq _ h1
    have := sq _ h2
    have := sq _ h3
    simp only [lenSq, dot, sub_x, sub_y, sub_z]; linarith
  have e : dot q.normal u - q.d = dot q.normal (u - x) := by
    rw [← hd]; simp only [dot, sub_x, sub_y, sub_z]; ring
  rw [e]
  refine abs_lt_of_sq_lt_sq ?_ (by norm_num)
  nlinarith

/-- A list of vertex numbers is closed under the relation `R`: each is related to the next one, and the last one to the first. -/
def Ring (R : ℤ → ℤ → Prop) (f : List ℤ) : Prop :=
  f.IsChain R ∧ ∀ a z, f.head? = some a → f.getLast? = some z → R z a

theorem Ring.reverse {R : ℤ → ℤ → Prop} (hR : ∀ a b, R a b → R b a) {f : List ℤ} (h : Ring R f) : Ring R f.reverse := by
  refine ⟨?_, fun a z ha hz => ?_⟩
  · rw [List.isChain_reverse]
    exact h.1.imp fun a b hab => hR a b hab
  · rw [List.head?_reverse] at ha
    rw [List.getLast?_reverse] at hz
    exact hR _ _ (h.2 z a hz ha)

/-- The face before the winding order is repaired. -/
theorem face_props (b : PBVolume ℝ) (hu : ∀ q ∈ b.p, lenSq q.normal = 1)
    (hp : b.p.Pairwise fun q r => q.isParallel r = false) (f : List ℤ) (hf : f ∈ connectFaces (b.corners b.cornerPoint).2) :
    3 ≤ f.length ∧ ∃ i, (∀ m ∈ f, ∃ u, (b.corners b.cornerPoint).1[m.toNat]? = some u ∧ 0 ≤ m ∧ Near b (1 / 500) i u) ∧
      (b.assertsHold = true → Ring (fun m m' => ∃ j u u', j ≠ i ∧ (b.corners b.cornerPoint).1[m.toNat]? = some u ∧
        (b.corners b.cornerPoint).1[m'.toNat]? = some u' ∧ 0 ≤ m ∧ 0 ≤ m' ∧ Near b (1 / 500) j u ∧ Near b (1 / 500) j u') f) := by
  have inv := corners_inv (b := b) (corner := b.cornerPoint) (Good := Good b) (good_of_corner hp) Good.symm
  set st := b.corners b.cornerPoint with hst
  unfold connectFaces at hf
  obtain ⟨pts, hpts, rfl⟩ := List.mem_map.1 hf
  obtain ⟨hmem, hlen⟩ := List.mem_filter.1 hpts
  have hlen : 3 ≤ pts.length := by simpa using hlen
  obtain ⟨i, hi⟩ := List.getElem?_of_mem hmem
  obtain ⟨s1, s2, s3⟩ := connectFace_spec pts
  have good : ∀ c ∈ (connectFace pts).1, ∃ u x, st.1[c.ptIndex]? = some u ∧ nearEq u x = true ∧ Good b i c.j c.k x := by
    intro c hc
    obtain ⟨c', hc', hs⟩ := s2 c hc
    obtain ⟨u, x, h1, h2, h3⟩ := inv.face i pts hi c' hc'
    rcases hs with e | e
    · rw [e]; exact ⟨u, x, h1, h2, h3⟩
    · rw [e]; exact ⟨u, x, h1, h2, h3.swap⟩
  refine ⟨?_, i, ?_, ?_⟩
  · rw [List.length_map]
    have := s1.length_eq
    rw [List.length_map, List.length_map] at this
    omega
  · intro m hm
    obtain ⟨c, hc, rfl⟩ := List.mem_map.1 hm
    obtain ⟨u, x, h1, h2, h3⟩ := good c hc
    exact ⟨u, by simpa using h1, by positivity, near_of_nearEq hu h2 h3.2.2.2.1⟩
  · intro ha
    have hb : (connectFace pts).2 = true := by
      have := List.all_eq_true.1 ha pts hmem
      rw [Bool.or_eq_true] at this
      rcases this with h | h
      · exact absurd (of_decide_eq_true h) (by omega)
      · exact h
    obtain ⟨c1, c2⟩ := s3 hb
    have rel : ∀ c ∈ (connectFace pts).1, ∀ d ∈ (connectFace pts).1, c.k = d.j → ∃ j u u', j ≠ i ∧
        st.1[((c.ptIndex : ℤ)).toNat]? = some u ∧ st.1[((d.ptIndex : ℤ)).toNat]? = some u' ∧ (0 : ℤ) ≤ c.ptIndex ∧ (0 : ℤ) ≤ d.ptIndex ∧
        Near b (1 / 500) j u ∧ Near b (1 / 500) j u' := by
      intro c hc d hd e
      obtain ⟨u, x, h1, h2, h3⟩ := good c hc
      obtain ⟨u', x', h1', h2', h3'⟩ := good d hd
      refine ⟨c.k, u, u', h3.2.1.symm, by simpa using h1, by simpa using h1', by positivity, by positivity,
        near_of_nearEq hu h2 h3.2.2.2.2.2.1, ?_⟩
      rw [e]; exact near_of_nearEq hu h2' h3'.2.2.2.2.1
    constructor
    · rw [List.isChain_map]
      have key : ∀ l : List CornerPt, (∀ c ∈ l, c ∈ (connectFace pts).1) → l.IsChain (fun a b : CornerPt => a.k = b.j) →
          l.IsChain (fun c d => ∃ j u u', j ≠ i ∧
        st.1[((c.ptIndex : ℤ)).toNat]? = some u ∧ st.1[((d.ptIndex : ℤ)).toNat]? = some u' ∧ (0 : ℤ) ≤ c.ptIndex ∧ (0 : ℤ) ≤ d.ptIndex ∧
        Near b (1 / 500) j u ∧ Near b (1 / 500) j u') := by
        intro l
        induction l with
        | nil => intro _ _; exact List.IsChain.nil
        | cons c l ih =>
          intro hl hch
          cases l with
          | nil => exact List.IsChain.singleton c
          | cons d l =>
            rw [List.isChain_cons_cons] at hch ⊢
            exact ⟨rel c (hl c (by simp)) d (hl d (by simp)) hch.1, ih (fun x hx => hl x (List.mem_cons_of_mem _ hx)) hch.2⟩
      exact key _ (fun c hc => hc) c1
    · intro a z ha hz
      rw [List.head?_map] at ha
      rw [List.getLast?_map] at hz
      obtain ⟨a', ha', rfl⟩ := Option.map_eq_some_iff.1 ha
      obtain ⟨z', hz', rfl⟩ := Option.map_eq_some_iff.1 hz
      exact rel z' (List.mem_of_getLast? hz') a' (List.mem_of_head? ha') (c2 a' z' ha' hz')

theorem fixWinding_some (ph : Polyhedron ℝ) (f : List ℤ) (h3 : 3 ≤ f.length) (hv : ∀ m ∈ f, ∃ u, ph.vertex m = some u) :
    ∃ g, fixWinding ph f = some g ∧ (g = f ∨ g = f.reverse) := by
  match f, h3, hv with
  | a :: b :: c :: l, _, hv =>
    obtain ⟨x, hx⟩ := hv a (by simp)
    obtain ⟨y, hy⟩ := hv b (by simp)
    obtain ⟨z, hz⟩ := hv c (by simp)
    simp only [fixWinding, Polyhedron.facePlane, hx, hy, hz, Option.bind_eq_bind, Option.bind_some]
    refine ⟨_, rfl, ?_⟩
    split
    · right; exact Polyhedron.flipFace_eq _
    · left; rfl

theorem mapM_exists {β γ : Type} (g : β → Option γ) (R : β → γ → Prop) :
    ∀ l : List β, (∀ x ∈ l, ∃ y, g x = some y ∧ R x y) → ∃ l', l.mapM g = some l' ∧ List.Forall₂ R l l'
  | [], _ => ⟨[], by simp, List.Forall₂.nil⟩
  | x :: xs, h => by
    obtain ⟨y, hy, hr⟩ := h x (by simp)
    obtain ⟨ys, hys, hrs⟩ := mapM_exists g R xs (fun z hz => h z (List.mem_cons_of_mem _ hz))
    exact ⟨y :: ys, by simp [List.mapM_cons, hy, hys], List.Forall₂.cons hr hrs⟩

theorem toPolyhedron_eq (b : PBVolume ℝ) (hu : ∀ q ∈ b.p, lenSq q.normal = 1)
    (hp : b.p.Pairwise fun q r => q.isParallel r = false) :
    ∃ P, b.toPolyhedron = some P ∧ P.v = (b.corners b.cornerPoint).1 ∧
      (4 ≤ P.v.length → List.Forall₂ (fun f g => g = f ∨ g = f.reverse) (connectFaces (b.corners b.cornerPoint).2) P.f) := by
  unfold toPolyhedron
  dsimp only
  split_ifs with h1 h2 h3
  · exact ⟨_, rfl, rfl, fun h => absurd h (by dsimp only; omega)⟩
  · exact ⟨_, rfl, rfl, fun h => absurd h (by dsimp only; omega)⟩
  · exact ⟨_, rfl, rfl, fun h => absurd h (by dsimp only; omega)⟩
  · obtain ⟨fs, hfs, hR⟩ := mapM_exists (fixWinding ⟨(b.corners b.cornerPoint).1, connectFaces (b.corners b.cornerPoint).2⟩)
      (fun f g => g = f ∨ g = f.reverse) (connectFaces (b.corners b.cornerPoint).2) (fun f hf => by
        obtain ⟨l, i, hi, -⟩ := face_props b hu hp f hf
        refine fixWinding_some _ f l fun m hm => ?_
        obtain ⟨u, e1, e2, -⟩ := hi m hm
        exact ⟨u, by simp only [Polyhedron.vertex]; rw [if_pos e2]; exact e1⟩)
    rw [hfs]
    exact ⟨_, rfl, rfl, fun _ => hR⟩

/-- C102: the polyhedron of a volume with unit normals, no two of which are equal (to 1e-3). Its vertices are points of the
volume on three of its planes. Each corner of the volume (a point of the volume on three planes that are not nearly dependent) is
one of its vertices, up to 1e-3 in each coordinate. When there are at least four vertices, each face has at least three vertices,
they are vertices of the polyhedron, and they are on one of the planes up to 1/500; when no assert of the function fails, any
two consecutive vertices of the face are also on a common second plane. Missing from the full claim: the asserts fail when more
than three planes meet in a corner, see `C102_pyramid_violation`; and volumes with two equal normals, see
`C102_vertex_violation`. -/
theorem C102_polyhedron_partial (b : PBVolume ℝ) (hu : ∀ q ∈ b.p, lenSq q.normal = 1)
    (hp : b.p.Pairwise fun q r => q.isParallel r = false) :
    ∃ P, b.toPolyhedron = some P ∧
      (∀ x ∈ P.v, x ∈ Spec.halfSpaces b.planes ∧ ∃ i j k, i ≠ j ∧ i ≠ k ∧ j ≠ k ∧ On b i x ∧ On b j x ∧ On b k x) ∧
      (∀ x ∈ Spec.halfSpaces b.planes, ∀ (i j k : ℕ) (p q r : Plane ℝ), i < j → j < k →
        b.p[i]? = some p → b.p[j]? = some q → b.p[k]? = some r →
        dot p.normal x = p.d → dot q.normal x = q.d → dot r.normal x = r.d →
        1 / 500 ≤ |dot p.normal (cross q.normal r.normal)| →
        ∃ u ∈ P.v, |u.x - x.x| < 1 / 1000 ∧ |u.y - x.y| < 1 / 1000 ∧ |u.z - x.z| < 1 / 1000) ∧
      (4 ≤ P.v.length → ∀ f ∈ P.f, 3 ≤ f.length ∧ ∃ i, (∀ m ∈ f, ∃ u, P.vertex m = some u ∧ Near b (1 / 500) i u) ∧
        (b.assertsHold = true → Ring (fun m m' => ∃ j u u', j ≠ i ∧ P.vertex m = some u ∧ P.vertex m' = some u' ∧
          Near b (1 / 500) j u ∧ Near b (1 / 500) j u') f)) := by
  have inv := corners_inv (b := b) (corner := b.cornerPoint) (Good := Good b) (good_of_corner hp) Good.symm
  obtain ⟨P, hP, hv, hf⟩ := toPolyhedron_eq b hu hp
  refine ⟨P, hP, ?_, ?_, ?_⟩
  · intro x hx
    rw [hv] at hx
    obtain ⟨i, j, k, h1, h2, h3, h4, h5, h6, h7⟩ := inv.vert x hx
    exact ⟨h7, i, j, k, h1, h2, h3, h4, h5, h6⟩
  · intro x hx i j k p q r hij hjk gi gj gk o1 o2 o3 hd
    have hk : k < b.p.length := (List.getElem?_eq_some_iff.1 gk).1
    obtain ⟨y, hy, hset⟩ := C64_intersects_planes_det_partial p q r (hu p (List.mem_of_getElem? gi)) (hu q (List.mem_of_getElem? gj))
      (hu r (List.mem_of_getElem? gk)) hd
    have hxy : x = y := by
      have : x ∈ Spec.plane p.normal p.d ∩ Spec.plane q.normal q.d ∩ Spec.plane r.normal r.d := ⟨⟨o1, o2⟩, o3⟩
      rw [hset] at this
      exact this
    subst hxy
    have hc : b.cornerPoint i j k = some x := by
      unfold cornerPoint
      rw [gi, gj, gk]
      exact hy
    have he : b.containsExcept x i j k = true :=
      (containsExcept_iff b x i j k).2 fun l s hs _ _ _ => (mem_half b x).1 hx s (List.mem_of_getElem? hs)
    obtain ⟨m, u, hm, hn, -⟩ := inv.full i j k x (mem_triples.2 ⟨hij, hjk, hk⟩) hc he
    exact ⟨u, by rw [hv]; exact List.mem_of_getElem? hm, (nearEq_iff u x).1 hn⟩
  · intro h4 g hg
    obtain ⟨f, hfm, hgf⟩ : ∃ f ∈ connectFaces (b.corners b.cornerPoint).2, g = f ∨ g = f.reverse := by
      have := hf h4
      obtain ⟨n, hn⟩ := List.getElem?_of_mem hg
      obtain ⟨hlt, rfl⟩ := List.getElem?_eq_some_iff.1 hn
      have hlt' : n < (connectFaces (b.corners b.cornerPoint).2).length := by rw [this.length_eq]; exact hlt
      exact ⟨_, List.getElem_mem hlt', (List.forall₂_iff_get.1 this).2 n hlt' hlt⟩
    obtain ⟨l, i, hi, hr⟩ := face_props b hu hp f hfm
    have vtx : ∀ (m : ℤ) u, (b.corners b.cornerPoint).1[m.toNat]? = some u → 0 ≤ m → P.vertex m = some u := by
      intro m u h h0
      simp only [Polyhedron.vertex]; rw [if_pos h0, hv]; exact h
    have hr' : b.assertsHold = true → Ring (fun m m' => ∃ j u u', j ≠ i ∧ P.vertex m = some u ∧ P.vertex m' = some u' ∧
          Near b (1 / 500) j u ∧ Near b (1 / 500) j u') f := by
      intro ha
      obtain ⟨c1, c2⟩ := hr ha
      refine ⟨c1.imp ?_, fun a z h1 h2 => ?_⟩
      · rintro m m' ⟨j, u, u', e1, e2, e3, e4, e5, e6, e7⟩
        exact ⟨j, u, u', e1, vtx m u e2 e4, vtx m' u' e3 e5, e6, e7⟩
      · obtain ⟨j, u, u', e1, e2, e3, e4, e5, e6, e7⟩ := c2 a z h1 h2
        exact ⟨j, u, u', e1, vtx _ u e2 e4, vtx _ u' e3 e5, e6, e7⟩
    have hi' : ∀ m ∈ f, ∃ u, P.vertex m = some u ∧ Near b (1 / 500) i u := by
      intro m hm
      obtain ⟨u, e1, e2, e3⟩ := hi m hm
      exact ⟨u, vtx m u e1 e2, e3⟩
    rcases hgf with rfl | rfl
    · exact ⟨l, i, hi', hr'⟩
    · refine ⟨by rw [List.length_reverse]; exact l, i, fun m hm => hi' m (List.mem_reverse.1 hm), fun ha => ?_⟩
      refine (hr' ha).reverse ?_
      rintro m m' ⟨j, u, u', e1, e2, e3, e4, e5⟩
      exact ⟨j, u', u, e1, e3, e2, e5, e4⟩

/-! ### Examples -/

theorem corner_some (b : PBVolume ℝ) {i j k : ℕ} (p q r : Plane ℝ) (hi : b.p[i]? = some p) (hj : b.p[j]? = some q)
    (hk : b.p[k]? = some r) (hp : lenSq p.normal = 1) (hq : lenSq q.normal = 1) (hr : lenSq r.normal = 1)
    (hd : 1 / 500 ≤ |dot p.normal (cross q.normal r.normal)|) (x : V3 ℝ) (o1 : dot p.normal x = p.d)
    (o2 : dot q.normal x = q.d) (o3 : dot r.normal x = r.d) : b.cornerPoint i j k = some x := by
  obtain ⟨y, hy, hset⟩ := C64_intersects_planes_det_partial p q r hp hq hr hd
  have hxy : x = y := by
    have : x ∈ Spec.plane p.normal p.d ∩ Spec.plane q.normal q.d ∩ Spec.plane r.normal r.d := ⟨⟨o1, o2⟩, o3⟩
    rw [hset] at this
    exact this
  subst hxy
  unfold cornerPoint
  rw [hi, hj, hk]
  exact hy

theorem corner_none (b : PBVolume ℝ) {i j k : ℕ} (p q r : Plane ℝ) (hi : b.p[i]? = some p) (hj : b.p[j]? = some q)
    (hk : b.p[k]? = some r) (h1 : p.isParallel q = false) (h2 : p.isParallel r = false) (h3 : q.isParallel r = false)
    (hd : dot p.normal (cross q.normal r.normal) = 0) : b.cornerPoint i j k = none := by
  unfold cornerPoint
  rw [hi, hj, hk]
  show p.intersectsPlanes q r = none
  unfold Plane.intersectsPlanes
  rw [h1, h2, h3]
  simp only [Bool.false_eq_true, or_self, if_false]
  cases hs : Mat3.solveAxb (Mat3.ofRows p.normal q.normal r.normal) ⟨p.d, q.d, r.d⟩ with
  | none => rfl
  | some x =>
    exfalso
    apply (C37_solveAxb _ _ x hs).2.1
    rw [Matrix.det_fin_three]
    simp only [dot, cross] at hd
    simp [Mat3.ofRows]
    linear_combination hd

/-- A tetrahedron. -/
def tetra : PBVolume ℝ := ⟨[⟨⟨-1, 0, 0⟩, 0⟩, ⟨⟨0, -1, 0⟩, 0⟩, ⟨⟨0, 0, -1⟩, 0⟩, ⟨⟨2/3, 2/3, 1/3⟩, 1⟩]⟩

theorem tetra_corner : tetra.cornerPoint 0 1 2 = some ⟨0, 0, 0⟩ ∧ tetra.cornerPoint 0 1 3 = some ⟨0, 0, 3⟩ ∧
    tetra.cornerPoint 0 2 3 = some ⟨0, 3/2, 0⟩ ∧ tetra.cornerPoint 1 2 3 = some ⟨3/2, 0, 0⟩ := by
  refine ⟨corner_some _ _ _ _ rfl rfl rfl ?_ ?_ ?_ ?_ _ ?_ ?_ ?_, corner_some _ _ _ _ rfl rfl rfl ?_ ?_ ?_ ?_ _ ?_ ?_ ?_,
    corner_some _ _ _ _ rfl rfl rfl ?_ ?_ ?_ ?_ _ ?_ ?_ ?_, corner_some _ _ _ _ rfl rfl rfl ?_ ?_ ?_ ?_ _ ?_ ?_ ?_⟩ <;>
  norm_num [lenSq, dot, cross, abs]

theorem tetra_except : tetra.containsExcept ⟨0, 0, 0⟩ 0 1 2 = true ∧ tetra.containsExcept ⟨0, 0, 3⟩ 0 1 3 = true ∧
    tetra.containsExcept ⟨0, 3/2, 0⟩ 0 2 3 = true ∧ tetra.containsExcept ⟨3/2, 0, 0⟩ 1 2 3 = true := by
  refine ⟨?_, ?_, ?_, ?_⟩ <;> norm_num [containsExcept, tetra, Plane.signedDistance, dot, List.zipIdx]

theorem tetra_corners : tetra.corners tetra.cornerPoint =
    ([⟨0, 0, 0⟩, ⟨0, 0, 3⟩, ⟨0, 3/2, 0⟩, ⟨3/2, 0, 0⟩],
     [[⟨0, 1, 2⟩, ⟨1, 1, 3⟩, ⟨2, 2, 3⟩], [⟨0, 0, 2⟩, ⟨1, 0, 3⟩, ⟨3, 2, 3⟩], [⟨0, 0, 1⟩, ⟨2, 0, 3⟩, ⟨3, 1, 3⟩],
      [⟨1, 0, 1⟩, ⟨2, 0, 2⟩, ⟨3, 1, 2⟩]]) := by
  obtain ⟨a, b, c, d⟩ := tetra_corner
  obtain ⟨a', b', c', d'⟩ := tetra_except
  have ht : triples tetra.p.length = [(0, 1, 2), (0, 1, 3), (0, 2, 3), (1, 2, 3)] := by
    show triples 4 = _
    decide
  have hl : tetra.p.length = 4 := rfl
  unfold corners
  rw [ht, hl]
  simp only [List.foldl_cons, List.foldl_nil, cornerStep, a, b, c, d, a', b', c', d', if_true]
  norm_num [addVertex, nearEq, absF, pushCorner, List.findIdx?_cons, List.modify, List.replicate]

example : (∀ q ∈ tetra.p, lenSq q.normal = 1) ∧ (tetra.p.Pairwise fun q r => q.isParallel r = false) ∧
    4 ≤ (tetra.corners tetra.cornerPoint).1.length ∧ tetra.assertsHold = true ∧
    connectFaces (tetra.corners tetra.cornerPoint).2 = [[0, 2, 1], [0, 3, 1], [0, 3, 2], [1, 3, 2]] := by
  refine ⟨?_, ?_, ?_, ?_, ?_⟩
  · intro q hq
    simp only [tetra, List.mem_cons, List.not_mem_nil, or_false] at hq
    rcases hq with rfl | rfl | rfl | rfl <;> norm_num [lenSq, dot]
  · simp only [tetra]
    norm_num [Plane.isParallel, absF]
  · rw [tetra_corners]; simp
  · unfold assertsHold
    rw [tetra_corners]
    simp [connectFace, connectLoop, findNext]
  · rw [tetra_corners]
    simp [connectFaces, connectFace, connectLoop, findNext]

/-- C102 fails for volumes with two equal normals: for the planes `x ≤ 1`, `x ≤ 2`, `y ≤ 1` the polyhedron has a vertex outside of
the volume. -/
theorem C102_vertex_violation : ∃ (b : PBVolume ℝ) (P : Polyhedron ℝ), (∀ q ∈ b.p, lenSq q.normal = 1) ∧
    b.toPolyhedron = some P ∧ ∃ x ∈ P.v, x ∉ Spec.halfSpaces b.planes := by
  let B : PBVolume ℝ := ⟨[⟨⟨1, 0, 0⟩, 1⟩, ⟨⟨1, 0, 0⟩, 2⟩, ⟨⟨0, 1, 0⟩, 1⟩]⟩
  have hc : B.cornerPoint 0 1 2 = some ⟨2, 1, 0⟩ := by
    show Plane.intersectsPlanes ⟨⟨1, 0, 0⟩, 1⟩ ⟨⟨1, 0, 0⟩, 2⟩ ⟨⟨0, 1, 0⟩, 1⟩ = _
    unfold Plane.intersectsPlanes
    rw [if_pos (Or.inl (by norm_num [Plane.isParallel, absF])), if_pos (Or.inr (by norm_num [equalAbs, absF]))]
    unfold Plane.intersectsPlane
    dsimp only
    rw [(two_planes 2 1).1, (two_planes 2 1).2]
    simp [Line.getPoint]
    ext <;> simp
  have he : B.containsExcept ⟨2, 1, 0⟩ 0 1 2 = true := by
    norm_num [B, containsExcept, List.zipIdx]
  have hv : (B.corners B.cornerPoint).1 = [⟨2, 1, 0⟩] := by
    have ht : triples B.p.length = [(0, 1, 2)] := by
      show triples 3 = _
      decide
    unfold corners
    rw [ht]
    simp only [List.foldl_cons, List.foldl_nil, cornerStep, hc, he, if_true]
    simp [addVertex]
  refine ⟨B, ⟨[⟨2, 1, 0⟩], []⟩, ?_, ?_, ⟨2, 1, 0⟩, by simp, ?_⟩
  · intro q hq
    simp only [B, List.mem_cons, List.not_mem_nil, or_false] at hq
    rcases hq with rfl | rfl | rfl <;> norm_num [lenSq, dot]
  · unfold toPolyhedron
    dsimp only
    rw [hv]
    simp
  · rw [mem_half]
    intro h
    have := h ⟨⟨1, 0, 0⟩, 1⟩ (by simp [B])
    norm_num [Plane.signedDistance, dot] at this

/-- A pyramid with four sides. -/
def pyramid : PBVolume ℝ := ⟨[⟨⟨4/5, 0, 3/5⟩, 0⟩, ⟨⟨0, 4/5, 3/5⟩, 0⟩, ⟨⟨-4/5, 0, 3/5⟩, 0⟩, ⟨⟨0, -4/5, 3/5⟩, 0⟩, ⟨⟨0, 0, -1⟩, 1⟩]⟩

theorem pyramid_corner : pyramid.cornerPoint 0 1 2 = some ⟨0, 0, 0⟩ ∧ pyramid.cornerPoint 0 1 3 = some ⟨0, 0, 0⟩ ∧
    pyramid.cornerPoint 0 1 4 = some ⟨3/4, 3/4, -1⟩ ∧ pyramid.cornerPoint 0 2 3 = some ⟨0, 0, 0⟩ ∧
    pyramid.cornerPoint 0 3 4 = some ⟨3/4, -3/4, -1⟩ ∧ pyramid.cornerPoint 1 2 3 = some ⟨0, 0, 0⟩ ∧
    pyramid.cornerPoint 1 2 4 = some ⟨-3/4, 3/4, -1⟩ ∧ pyramid.cornerPoint 2 3 4 = some ⟨-3/4, -3/4, -1⟩ := by
  refine ⟨corner_some _ _ _ _ rfl rfl rfl ?_ ?_ ?_ ?_ _ ?_ ?_ ?_, corner_some _ _ _ _ rfl rfl rfl ?_ ?_ ?_ ?_ _ ?_ ?_ ?_,
    corner_some _ _ _ _ rfl rfl rfl ?_ ?_ ?_ ?_ _ ?_ ?_ ?_, corner_some _ _ _ _ rfl rfl rfl ?_ ?_ ?_ ?_ _ ?_ ?_ ?_,
    corner_some _ _ _ _ rfl rfl rfl ?_ ?_ ?_ ?_ _ ?_ ?_ ?_, corner_some _ _ _ _ rfl rfl rfl ?_ ?_ ?_ ?_ _ ?_ ?_ ?_,
    corner_some _ _ _ _ rfl rfl rfl ?_ ?_ ?_ ?_ _ ?_ ?_ ?_, corner_some _ _ _ _ rfl rfl rfl ?_ ?_ ?_ ?_ _ ?_ ?_ ?_⟩ <;>
  norm_num [lenSq, dot, cross, abs]

theorem pyramid_corner_none : pyramid.cornerPoint 0 2 4 = none ∧ pyramid.cornerPoint 1 3 4 = none := by
  refine ⟨corner_none _ _ _ _ rfl rfl rfl ?_ ?_ ?_ ?_, corner_none _ _ _ _ rfl rfl rfl ?_ ?_ ?_ ?_⟩ <;>
  norm_num [Plane.isParallel, absF, dot, cross]

theorem pyramid_except : pyramid.containsExcept ⟨0, 0, 0⟩ 0 1 2 = true ∧ pyramid.containsExcept ⟨0, 0, 0⟩ 0 1 3 = true ∧
    pyramid.containsExcept ⟨3/4, 3/4, -1⟩ 0 1 4 = true ∧ pyramid.containsExcept ⟨0, 0, 0⟩ 0 2 3 = true ∧
    pyramid.containsExcept ⟨3/4, -3/4, -1⟩ 0 3 4 = true ∧ pyramid.containsExcept ⟨0, 0, 0⟩ 1 2 3 = true ∧
    pyramid.containsExcept ⟨-3/4, 3/4, -1⟩ 1 2 4 = true ∧ pyramid.containsExcept ⟨-3/4, -3/4, -1⟩ 2 3 4 = true := by
  refine ⟨?_, ?_, ?_, ?_, ?_, ?_, ?_, ?_⟩ <;> norm_num [containsExcept, pyramid, Plane.signedDistance, dot, List.zipIdx]

theorem pyramid_corners : ∃ fs, pyramid.corners pyramid.cornerPoint =
    ([⟨0, 0, 0⟩, ⟨3/4, 3/4, -1⟩, ⟨3/4, -3/4, -1⟩, ⟨-3/4, 3/4, -1⟩, ⟨-3/4, -3/4, -1⟩],
     [⟨0, 1, 2⟩, ⟨0, 1, 3⟩, ⟨1, 1, 4⟩, ⟨0, 2, 3⟩, ⟨2, 3, 4⟩] :: fs) := by
  obtain ⟨a, b, c, d, e, f, g, h⟩ := pyramid_corner
  obtain ⟨a', b', c', d', e', f', g', h'⟩ := pyramid_except
  obtain ⟨n1, n2⟩ := pyramid_corner_none
  have ht : triples pyramid.p.length = [(0, 1, 2), (0, 1, 3), (0, 1, 4), (0, 2, 3), (0, 2, 4), (0, 3, 4), (1, 2, 3), (1, 2, 4), (1, 3, 4),
      (2, 3, 4)] := by
    show triples 5 = _
    decide
  have hl : pyramid.p.length = 5 := rfl
  unfold corners
  rw [ht, hl]
  simp only [List.foldl_cons, List.foldl_nil, cornerStep, a, b, c, d, e, f, g, h, a', b', c', d', e', f', g', h', n1, n2, if_true]
  norm_num [addVertex, nearEq, absF, pushCorner, List.findIdx?_cons, List.modify, List.replicate]

/-- C102 fails for volumes with more than three planes through a corner: the polyhedron of a pyramid with four sides has a face
that uses the tip three times, so its face indices are not valid, and the asserts fail. -/
theorem C102_pyramid_violation : ∃ (b : PBVolume ℝ) (P : Polyhedron ℝ), (∀ q ∈ b.p, lenSq q.normal = 1) ∧
    (b.p.Pairwise fun q r => q.isParallel r = false) ∧ (Spec.openHalfSpaces b.planes).Nonempty ∧ b.assertsHold = false ∧
    b.toPolyhedron = some P ∧ (∃ f ∈ P.f, 3 ≤ f.count 0) ∧ P.faceIndicesValid = false := by
  have hu : ∀ q ∈ pyramid.p, lenSq q.normal = 1 := by
    intro q hq
    simp only [pyramid, List.mem_cons, List.not_mem_nil, or_false] at hq
    rcases hq with rfl | rfl | rfl | rfl | rfl <;> norm_num [lenSq, dot]
  have hp : pyramid.p.Pairwise fun q r => q.isParallel r = false := by
    simp only [pyramid]
    norm_num [Plane.isParallel, absF]
  obtain ⟨fs, hc⟩ := pyramid_corners
  obtain ⟨P, hP, hv, hf⟩ := toPolyhedron_eq pyramid hu hp
  rw [hc] at hv hf
  have h4 : 4 ≤ P.v.length := by rw [hv]; simp
  have hf := hf h4
  have hface : (connectFace [⟨0, 1, 2⟩, ⟨0, 1, 3⟩, ⟨1, 1, 4⟩, ⟨0, 2, 3⟩, ⟨2, 3, 4⟩]).1.map (fun c => (c.ptIndex : ℤ)) = [0, 0, 0, 1, 2] ∧
      (connectFace [⟨0, 1, 2⟩, ⟨0, 1, 3⟩, ⟨1, 1, 4⟩, ⟨0, 2, 3⟩, ⟨2, 3, 4⟩]).2 = false := by
    simp [connectFace, connectLoop, findNext]
  have hcf : ∃ gs, connectFaces ([⟨0, 1, 2⟩, ⟨0, 1, 3⟩, ⟨1, 1, 4⟩, ⟨0, 2, 3⟩, ⟨2, 3, 4⟩] :: fs) = [0, 0, 0, 1, 2] :: gs := by
    unfold connectFaces
    rw [List.filter_cons_of_pos (by simp), List.map_cons, hface.1]
    exact ⟨_, rfl⟩
  obtain ⟨gs, hgs⟩ := hcf
  rw [hgs] at hf
  obtain ⟨g, gs', hg, -, hPf⟩ := List.forall₂_cons_left_iff.1 hf
  have hcount : ∃ f ∈ P.f, f = [0, 0, 0, 1, 2] ∨ f = [2, 1, 0, 0, 0] := by
    refine ⟨g, by rw [hPf]; simp, ?_⟩
    simpa using hg
  obtain ⟨f, hfm, hfe⟩ := hcount
  refine ⟨pyramid, P, hu, hp, ⟨⟨0, 0, -1/2⟩, ?_⟩, ?_, hP, ⟨f, hfm, ?_⟩, ?_⟩
  · intro h hh
    obtain ⟨q, hq, rfl⟩ := List.mem_map.1 hh
    simp only [pyramid, List.mem_cons, List.not_mem_nil, or_false] at hq
    rcases hq with rfl | rfl | rfl | rfl | rfl <;> norm_num [dot]
  · unfold assertsHold
    rw [hc, List.all_cons, hface.2]
    simp
  · rcases hfe with rfl | rfl <;> decide
  · rw [← Bool.not_eq_true]
    intro hval
    unfold Polyhedron.faceIndicesValid at hval
    rw [Bool.and_eq_true] at hval
    have := List.all_eq_true.1 hval.2 f hfm
    rcases hfe with rfl | rfl <;> revert this <;> decide

end

end PBVolume
end MGL
