import Verif.Model.Stl
import Mathlib.Data.List.Basic

namespace Xdyn.Stl

theorem wordOfBytes_bytesOfWord (w : Word) :
    ∃ a b c d, bytesOfWord w = [a, b, c, d] ∧ wordOfBytes a b c d = w := by
  refine ⟨_, _, _, _, rfl, ?_⟩
  have := w.isLt
  simp only [wordOfBytes, Fin.ext_iff]
  omega

theorem readWord_bytes (w : Word) (l : List Byte) :
    readWord { data := bytesOfWord w ++ l, good := true } = (some w, { data := l, good := true }) := by
  obtain ⟨a, b, c, d, h, hw⟩ := wordOfBytes_bytesOfWord w
  simp [h, readWord, Stream.get, hw]

theorem readWords_bytes : ∀ (ws : List Word) (l : List Byte),
    readWords ws.length { data := (ws.map bytesOfWord).flatten ++ l, good := true }
      = (ws.map some, { data := l, good := true })
  | [], l => by simp [readWords]
  | w :: ws, l => by
    simp only [List.length_cons, readWords, List.map_cons, List.flatten_cons, List.append_assoc,
      readWord_bytes, readWords_bytes ws l]

theorem length_bytesOfPoint (p : Point) : (bytesOfPoint p).length = 12 := by
  simp [bytesOfPoint, bytesOfWord]

def coords (a b c : Point) : List Word := [a.1, a.2.1, a.2.2, b.1, b.2.1, b.2.2, c.1, c.2.1, c.2.2]

theorem writeFacet_three (normal) (a b c : Point) (rest : List Point) :
    writeFacet normal (a :: b :: c :: rest) =
      some (bytesOfPoint (normal a b c) ++ ((coords a b c).map bytesOfWord).flatten ++ [0, 0]) := by
  simp [writeFacet, bytesOfPoint, coords]

theorem readFacets_step (n : Nat) (v : List (Option Word)) (nb : List Byte) (h : nb.length = 12)
    (a b c : Point) (l : List Byte) :
    readFacets (n + 1) v { data := nb ++ ((coords a b c).map bytesOfWord).flatten ++ [0, 0] ++ l, good := true }
    = (do return [a, b, c] :: (← readFacets n ((coords a b c).map some) { data := l, good := true })) := by
  have h1 : Stream.ignore { data := nb ++ ((coords a b c).map bytesOfWord).flatten ++ [0, 0] ++ l, good := true } 12
      = { data := ((coords a b c).map bytesOfWord).flatten ++ ([0, 0] ++ l), good := true } := by
    simp only [Stream.ignore, if_true, List.append_assoc]
    rw [if_pos (by simp [h])]
    rw [← h, List.drop_left]
  have h2 := readWords_bytes (coords a b c) ([0, 0] ++ l)
  have h3 : (coords a b c).length = 9 := rfl
  rw [h3] at h2
  have h4 : Stream.ignore { data := [0, 0] ++ l, good := true } 2 = { data := l, good := true } := by
    simp [Stream.ignore]
  rw [readFacets]
  simp only [if_true, h1, h2, h4]
  simp [coords, facetOf]

theorem write_read_facets (normal) : ∀ (stl : List Facet), (∀ f ∈ stl, f.length = 3) →
    ∃ body, writeFacets normal stl = some body ∧ body.length = 50 * stl.length ∧
      ∀ v, readFacets stl.length v { data := body, good := true } = some stl
  | [], _ => ⟨[], by simp [writeFacets, readFacets]⟩
  | f :: fs, h => by
    obtain ⟨body, hb, hlen, hr⟩ := write_read_facets normal fs (fun f hf => h f (by simp [hf]))
    have hf := h f (by simp)
    match f, hf with
    | [a, b, c], _ =>
      refine ⟨_, by rw [writeFacets, writeFacet_three, hb]; rfl, ?_, ?_⟩
      · simp [length_bytesOfPoint, coords, bytesOfWord, hlen]; omega
      · intro v
        have := readFacets_step fs.length v (bytesOfPoint (normal a b c)) (length_bytesOfPoint _) a b c body
        rw [List.length_cons, this, hr]; rfl

theorem isBinary_ones (l : List Byte) : isBinary ([1, 1, 1, 1, 1, 1] ++ l) = some true := by
  have h : ([1, 1, 1, 1, 1, 1] ++ l : List Byte).findIdx? (fun c => !(c.val == 32 || c.val == 9)) = some 0 := by
    simp [List.findIdx?_cons]
  simp only [isBinary, h, startsWith]
  have h1 : ([1, 1, 1, 1, 1, 1] ++ l : List Byte).take 6 = [1, 1, 1, 1, 1, 1] := by simp
  have h2 : solidLower.length = 6 := rfl
  have h3 : solidUpper.length = 6 := rfl
  rw [h2, h3, if_pos (by simp), if_pos (by simp)]
  simp only [List.drop_zero, h1]
  simp [solidLower, solidUpper]

end Xdyn.Stl
