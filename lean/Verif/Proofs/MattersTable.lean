import Verif.Proofs.Sparse
/-!
# Every compared position matters: certificate and check

Generated by `tools/genmatters.py`. Each row is a position, the index of an entry of the signature table, the index of one of
its alternatives, and a byte.
-/

namespace FF
open FileFormat

def mattersRows : List (Nat × Nat × Nat × UInt8) := [
  (0, 0, 0, 111), (1, 0, 0, 59), (2, 0, 0, 63), (3, 0, 0, 141), (4, 0, 0, 138), (5, 0, 0, 205), (6, 0, 0, 233), (7, 0, 0, 227),
  (8, 0, 0, 242), (9, 0, 0, 239), (10, 0, 0, 243), (11, 0, 0, 239), (12, 0, 0, 230), (13, 0, 0, 244), (14, 0, 0, 160), (15, 0, 0, 214),
  (16, 0, 0, 233), (17, 0, 0, 243), (18, 0, 0, 245), (19, 0, 0, 225), (20, 0, 0, 236), (21, 0, 0, 160), (22, 0, 0, 211), (23, 0, 0, 244),
  (24, 0, 0, 245), (25, 0, 0, 228), (26, 0, 0, 233), (27, 0, 0, 239), (28, 0, 0, 160), (29, 0, 0, 211), (30, 0, 0, 239), (31, 0, 0, 236),
  (32, 0, 0, 245), (33, 0, 0, 244), (34, 0, 0, 233), (35, 0, 0, 239), (36, 0, 0, 238), (37, 0, 0, 160), (38, 0, 0, 198), (39, 0, 0, 233),
  (40, 0, 0, 236), (41, 0, 0, 229), (42, 0, 0, 172), (43, 0, 0, 160), (44, 0, 0, 198), (45, 0, 0, 239), (46, 0, 0, 242), (47, 0, 0, 237),
  (48, 0, 0, 225), (49, 0, 0, 244), (50, 0, 0, 160), (51, 0, 0, 214), (52, 0, 0, 229), (53, 0, 0, 242), (54, 0, 0, 243), (55, 0, 0, 233),
  (56, 0, 0, 239), (57, 0, 0, 238), (58, 0, 0, 160), (60, 140, 0, 194), (61, 140, 0, 207), (62, 140, 0, 207), (63, 140, 0, 203), (64, 140, 0, 205),
  (65, 140, 0, 207), (66, 140, 0, 194), (67, 140, 0, 201), (72, 95, 0, 211), (73, 95, 0, 160), (74, 95, 0, 160), (75, 95, 0, 160), (76, 95, 0, 160),
  (77, 95, 0, 160), (78, 95, 0, 160), (79, 95, 0, 177), (80, 95, 0, 141), (82, 53, 0, 133), (102, 1, 0, 188), (103, 1, 0, 225), (104, 1, 0, 226),
  (105, 1, 0, 233), (106, 1, 0, 247), (107, 1, 0, 239), (108, 1, 0, 242), (109, 1, 0, 228), (110, 1, 0, 160), (111, 1, 0, 244), (112, 1, 0, 229),
  (113, 1, 0, 237), (114, 1, 0, 240), (115, 1, 0, 236), (116, 1, 0, 225), (117, 1, 0, 244), (118, 1, 0, 229), (119, 1, 0, 189), (120, 1, 0, 162),
  (121, 1, 0, 230), (122, 1, 0, 225), (123, 1, 0, 236), (124, 1, 0, 243), (125, 1, 0, 229), (126, 1, 0, 162), (128, 53, 1, 211), (129, 53, 1, 201),
  (130, 53, 1, 212), (131, 53, 1, 161), (138, 53, 1, 242), (139, 53, 1, 204), (140, 53, 1, 225), (141, 53, 1, 245), (188, 338, 0, 199), (192, 145, 0, 164),
  (193, 145, 0, 127), (194, 145, 0, 46), (195, 145, 0, 209), (196, 145, 0, 233), (197, 145, 0, 26), (198, 145, 0, 34), (199, 145, 0, 161), (256, 60, 0, 211),
  (257, 60, 0, 197), (258, 60, 0, 199), (259, 60, 0, 193), (260, 60, 0, 160), (261, 60, 0, 205), (262, 60, 0, 197), (263, 60, 0, 199), (264, 60, 0, 193),
  (265, 60, 0, 160), (266, 60, 0, 196), (267, 60, 0, 210), (268, 60, 0, 201), (269, 60, 0, 214), (270, 60, 0, 197), (323, 100, 0, 0), (1080, 297, 0, 205),
  (1081, 297, 0, 174), (1082, 297, 0, 203), (1083, 297, 0, 174), (32752, 101, 0, 212), (32753, 101, 0, 205), (32754, 101, 0, 210), (32755, 101, 0, 160), (32756, 101, 0, 211),
  (32757, 101, 0, 197), (32758, 101, 0, 199), (32759, 101, 0, 193), (32767, 101, 0, 208), (32769, 208, 0, 195), (32770, 208, 0, 196), (32771, 208, 0, 176), (32772, 208, 0, 176),
  (32773, 208, 0, 177), (34817, 208, 1, 195), (34818, 208, 1, 196), (34819, 208, 1, 176), (34820, 208, 1, 176), (34821, 208, 1, 177), (36865, 208, 2, 195), (36866, 208, 2, 196),
  (36867, 208, 2, 176), (36868, 208, 2, 176), (36869, 208, 2, 177)]

/-- Writing the byte at the position changes the verdict on the zero-filled input with this magic value. -/
def rowMatters (r : Nat × Nat × Nat × UInt8) : Bool :=
  match signatureTable[r.2.1]? with
  | none => false
  | some e =>
    match e.alts[r.2.2.1]? with
    | none => false
    | some alt => Nat.blt r.1 (partsEnd alt) &&
        !(sparseVerdict alt (partsEnd alt) == sparseVerdict (⟨r.1, [r.2.2.2]⟩ :: alt) (partsEnd alt))

theorem rows_matter0 : ((mattersRows.drop 0).take 82).all rowMatters = true := by decide +kernel
theorem rows_matter1 : (mattersRows.drop 82).all rowMatters = true := by decide +kernel

theorem rows_matter : mattersRows.all rowMatters = true := by
  rw [← List.take_append_drop 82 mattersRows, List.all_append]
  exact Bool.and_eq_true_iff.mpr ⟨rows_matter0, rows_matter1⟩

end FF
