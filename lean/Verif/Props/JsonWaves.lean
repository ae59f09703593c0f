import Verif.Model.JsonWaves
import Verif.Props.WaveGrid
import Verif.Props.Base91

/-! Property C209: a client gets the surface elevation back from the wave grid of the JSON and websocket outputs. -/

namespace Xdyn.Obs

open WaveGrid

/-! ### What a client does -/

/-- The value of the member called `k`. -/
def member {N : Type} (k : String) : List (Tok N) → Option (Tok N)
  | .str s :: .colon :: v :: rest => if s = k then some v else member k (.colon :: v :: rest)
  | _ :: rest => member k rest
  | [] => none

/-- The byte of a character. -/
def byteOf (c : Char) : Base91.Byte := ⟨c.toNat % 256, Nat.mod_lt _ (by decide)⟩

/-- The four bytes of the elevation number `i` along x, `j` along y, when there are `nx` points along x. -/
def readElevation (text : List Char) (nx i j : Nat) : List Base91.Byte := ((Base91.decode (text.map byteOf)).drop (4 * (j * nx + i))).take 4

/-! ### Proofs -/

theorem byteOf_charOf (b : Base91.Byte) : byteOf (charOf b) = b := by
  revert b
  decide +kernel

theorem drop_flatMap {α β : Type} (f : α → List β) (hf : ∀ x, (f x).length = 4) : ∀ (l : List α) (n : Nat), (l.flatMap f).drop (4 * n) = (l.drop n).flatMap f
  | l, 0 => by simp
  | [], n + 1 => by simp
  | x :: l, n + 1 => by
    rw [List.flatMap_cons, show 4 * (n + 1) = (f x).length + 4 * n by rw [hf]; ring, List.drop_append, List.drop_of_length_le (by omega), List.nil_append,
      show (f x).length + 4 * n - (f x).length = 4 * n by omega, drop_flatMap f hf l n]
    rfl

theorem take_flatMap {α β : Type} (f : α → List β) (hf : ∀ x, (f x).length = 4) (l : List α) (n : Nat) (v : α) (hv : l[n]? = some v) : ((l.flatMap f).drop (4 * n)).take 4 = f v := by
  obtain ⟨hn, rfl⟩ := List.getElem?_eq_some_iff.mp hv
  rw [drop_flatMap f hf, List.drop_eq_getElem_cons hn, List.flatMap_cons, List.take_append_of_le_length (by rw [hf]), List.take_of_length_le (by rw [hf])]

section
variable {K : Type}

/-- The members of the object written for a grid that has points. -/
theorem grid_members (ofNat : Nat → K) (d : Dict K) (g : Grid K) (hn : 0 < g.n) (xmin xmax ymin ymax : K) (h1 : g.x.head? = some xmin) (h2 : g.x.getLast? = some xmax) (h3 : g.y.head? = some ymin)
    (h4 : g.y.getLast? = some ymax) :
    let m := (d.putGrid ofNat g).grid
    member "nx" m = some (.num (ofNat g.x.length)) ∧ member "ny" m = some (.num (ofNat g.y.length)) ∧ member "xmin" m = some (.num xmin) ∧ member "xmax" m = some (.num xmax) ∧
      member "ymin" m = some (.num ymin) ∧ member "ymax" m = some (.num ymax) ∧ member "z" m = some (.squoted g.z) := by
  simp only [Dict.putGrid, if_pos hn, h1, h2, h3, h4, List.cons_append, List.nil_append]
  refine ⟨?_, ?_, ?_, ?_, ?_, ?_, ?_⟩ <;> simp [member]

end

variable {K : Type} [Field K] [LinearOrder K] [IsStrictOrderedRing K]

/-- First and last abscissae of a mesh in one direction. -/
theorem ends (lo hi a : K) (n : Nat) (hn : 1 ≤ n) (h2 : lo = hi ∨ 2 ≤ n) :
    0 < size (step lo hi n) n ∧ ((List.range (size (step lo hi n) n)).map (fun (i : Nat) => lo + (i : K) * step lo hi n + a)).head? = some (lo + a) ∧
      ((List.range (size (step lo hi n) n)).map (fun (i : Nat) => lo + (i : K) * step lo hi n + a)).getLast? = some (hi + a) := by
  by_cases h : lo = hi
  · subst h
    rw [mesh_single lo n hn]
    simp
  · obtain ⟨e1, -, e3⟩ := mesh_covers lo hi n (h2.resolve_left h) h
    rw [e1]
    refine ⟨hn, ?_, ?_⟩
    · rw [List.head?_map, List.head?_range, if_neg (by omega)]
      simp
    · rw [List.getLast?_map, List.getLast?_range, if_neg (by omega)]
      simp only [Option.map_some, e3]

/-- **C209** The wave grid of a line of the JSON output (or of a message of the websocket output) gives the surface elevation back: for every 'output' section with at least two points in each direction in which the bounds differ, in a
frame that is not turned with respect to NED, every sea and every conversion of the elevations to four bytes, the members of the object are the numbers of points, the bounds of the section, and a text from which, once
it is decoded, a client gets the bytes of the elevation of each of the points. -/
theorem wave_message_partial (o : Output K) (a b c : K) (eta : K → K → K) (hx : 1 ≤ o.nx) (hy : 1 ≤ o.ny) (hx2 : o.xmin = o.xmax ∨ 2 ≤ o.nx) (hy2 : o.ymin = o.ymax ∨ 2 ≤ o.ny)
    (bytes : K → List Base91.Byte) (hbytes : ∀ v, (bytes v).length = 4) (ofNat : Nat → K) (d : Dict K) :
    ∃ g jg text, wavesOnGrid (meshSize o).1 (meshSize o).2 (wavesOnMesh (fun p => (p.1 + a, p.2.1 + b, p.2.2 + c)) eta (makeWaveMesh o)) = .ok g ∧ jsonGrid bytes g = some jg ∧
      (∀ m, m = (d.putGrid ofNat jg).grid → member "nx" m = some (.num (ofNat (meshSize o).1)) ∧ member "ny" m = some (.num (ofNat (meshSize o).2)) ∧
        member "xmin" m = some (.num (o.xmin + a)) ∧ member "xmax" m = some (.num (o.xmax + a)) ∧
        member "ymin" m = some (.num (o.ymin + b)) ∧ member "ymax" m = some (.num (o.ymax + b)) ∧ member "z" m = some (.squoted text)) ∧
      ∀ i j : Nat, i < (meshSize o).1 → j < (meshSize o).2 →
        readElevation text (meshSize o).1 i j =
          bytes (eta (o.xmin + a + i * ((o.xmax - o.xmin) / ((max (o.nx - 1) 1 : Nat) : K))) (o.ymin + b + j * ((o.ymax - o.ymin) / ((max (o.ny - 1) 1 : Nat) : K)))) := by
  obtain ⟨px, x1, x2⟩ := ends o.xmin o.xmax a o.nx hx hx2
  obtain ⟨py, y1, y2⟩ := ends o.ymin o.ymax b o.ny hy hy2
  obtain ⟨g, hg, gx, gy, gz⟩ := grid_values o (fun p => (p.1 + a, p.2.1 + b, p.2.2 + c)) eta px py
  obtain ⟨text, ht, hd⟩ := Base91.base91_round_trip (g.z.flatten.flatMap bytes)
  refine ⟨g, ⟨g.x, g.y, g.z.flatten.length, text.map charOf⟩, text.map charOf, hg, by simp [jsonGrid, ht], ?_, ?_⟩
  · have hlen : 0 < g.z.flatten.length := by
      rw [gz, Waves.length_flatten_rows (fun (j i : Nat) => eta (o.xmin + (i : K) * step o.xmin o.xmax o.nx + a) (o.ymin + (j : K) * step o.ymin o.ymax o.ny + b))]
      exact Nat.mul_pos py px
    have h := grid_members ofNat d ⟨g.x, g.y, g.z.flatten.length, text.map charOf⟩ hlen (o.xmin + a) (o.xmax + a) (o.ymin + b) (o.ymax + b) (by rw [gx]; exact x1) (by rw [gx]; exact x2)
      (by rw [gy]; exact y1) (by rw [gy]; exact y2)
    rintro m rfl
    rwa [show g.x.length = (meshSize o).1 by rw [gx]; simp, show g.y.length = (meshSize o).2 by rw [gy]; simp] at h
  · intro i j hi hj
    have hs : ∀ (lo hi : K) (n : Nat), step lo hi n = (hi - lo) / ((max (n - 1) 1 : Nat) : K) := by
      intro lo hi n
      rw [step]
      congr 2
      split_ifs <;> omega
    have hv : g.z.flatten[j * (meshSize o).1 + i]? = some (eta (o.xmin + (i : K) * step o.xmin o.xmax o.nx + a) (o.ymin + (j : K) * step o.ymin o.ymax o.ny + b)) := by
      rw [gz]
      exact Waves.flatten_getElem? (fun (j i : Nat) => eta (o.xmin + (i : K) * step o.xmin o.xmax o.nx + a) (o.ymin + (j : K) * step o.ymin o.ymax o.ny + b)) _ _ j i hj hi
    have hm : (text.map charOf).map byteOf = text := by
      rw [List.map_map]
      conv_rhs => rw [← List.map_id text]
      exact List.map_congr_left fun x _ => byteOf_charOf x
    rw [readElevation, hm, hd, take_flatMap bytes hbytes _ _ _ hv, ← hs, ← hs]
    congr 2 <;> ring

/-- A mesh of 3 by 2 points in NED: the hypotheses are met, and the text has the elevation of the point (4, 11). -/
example (bytes : ℚ → List Base91.Byte) (hbytes : ∀ v, (bytes v).length = 4) (d : Dict ℚ) :
    ∃ g jg text, wavesOnGrid 3 2 (wavesOnMesh (fun p => (p.1 + 0, p.2.1 + 0, p.2.2 + 0)) (fun x y => x + 10 * y) (makeWaveMesh ⟨0, 4, 3, 10, 11, 2⟩)) = .ok g ∧ jsonGrid bytes g = some jg ∧
      member "xmax" (d.putGrid (fun n => (n : ℚ)) jg).grid = some (.num 4) ∧ member "nx" (d.putGrid (fun n => (n : ℚ)) jg).grid = some (.num 3) ∧
      member "z" (d.putGrid (fun n => (n : ℚ)) jg).grid = some (.squoted text) ∧ readElevation text 3 2 1 = bytes 114 := by
  have hsz : meshSize (⟨0, 4, 3, 10, 11, 2⟩ : Output ℚ) = (3, 2) := by decide +kernel
  obtain ⟨g, jg, text, h1, h2, h, h6⟩ := wave_message_partial (⟨0, 4, 3, 10, 11, 2⟩ : Output ℚ) 0 0 0 (fun x y => x + 10 * y) (by norm_num) (by norm_num) (by norm_num) (by norm_num) bytes hbytes (fun n => (n : ℚ)) d
  obtain ⟨h3, -, -, h4, -, -, h5⟩ := h _ rfl
  rw [hsz] at h1 h3 h6
  refine ⟨g, jg, text, h1, h2, by simpa using h4, by simpa using h3, h5, ?_⟩
  have := h6 2 1 (by norm_num) (by norm_num)
  norm_num at this
  exact this

end Xdyn.Obs
