import Verif.Proofs.FineCheck
/-
A certificate that the parser tables parse only the refined grammar: for every state, the classes that can be on the stack directly above
it, each with the tokens that can come next (as a bit mask). The kernel checks that the labels are closed under the actions of the tables.
Generated by tools/lr/gensound.py; nothing here is trusted, `check_walk` is a theorem.
-/
namespace Verif.Parser
open Verif Verif.Lexer Verif.LR Verif.Grammar

def allMask : Nat := 18446744073709551614

def allProds : Nat := 3


/-- labels above each state: class, tokens that can come next -/
def labTab : List (List (Nat × Nat)) := [
  [(64, 18446744073709551614), (69, 18446744073709551614), (70, 17870283321406128126)],
  [],
  [(71, 18446744073709551614), (72, 17870283321406128126), (73, 18446744073709551614), (74, 18446744073709551614), (75, 18446744073709551614), (76, 17870283321406128126), (77, 18446744073709551614), (78, 17870283321406128126), (79, 18446744073709551614), (80, 17870283321406128126), (82, 18446744073709551614), (84, 18446744073709551614), (86, 18446744073709551614), (87, 18446744073709549566), (99, 18445769491324117582), (111, 18446744073709551614), (112, 18446744073709551614), (113, 18446744073709551614), (114, 18446744073709549566), (121, 18445769491324117582), (122, 18445769766202024526), (123, 18446332716155445838), (124, 18446332716222554702), (125, 18446620928392421966), (126, 18446620928394519118), (127, 18446620928402907726), (128, 18446620928407102030), (129, 18446726481523368526), (130, 18446726481523369806), (131, 18446744073709418462), (132, 18446744073709418462), (133, 18445769474144248398), (134, 18445769474144248398), (135, 18445769474144248398), (136, 18445769474144248398), (137, 18445769474144248398), (138, 18445769474144248398), (139, 18445769474144248398), (140, 18445769474144248398), (141, 18445769474144248398), (142, 18445769474144248398), (143, 18445769474144248398), (144, 18445769474144248398)],
  [],
  [],
  [],
  [],
  [],
  [],
  [(83, 18446744073709551614)],
  [],
  [(86, 18446744073709551614), (87, 18446744073709549566), (110, 18446744073709418462), (111, 18446744073709551614), (112, 18446744073709551614), (113, 18446744073709551614), (114, 18446744073709549566)],
  [],
  [],
  [(86, 18446744073709551614), (87, 18446744073709549566), (99, 18445769491324117582), (111, 18446744073709551614), (112, 18446744073709551614), (113, 18446744073709551614), (114, 18446744073709549566), (121, 18445769491324117582), (122, 18445769766202024526), (123, 18446332716155445838), (124, 18446332716222554702), (125, 18446620928392421966), (126, 18446620928394519118), (127, 18446620928402907726), (128, 18446620928407102030), (129, 18446726481523368526), (130, 18446726481523369806), (131, 18446744073709418462), (132, 18446744073709418462), (133, 18445769474144248398), (134, 18445769474144248398), (135, 18445769474144248398), (136, 18445769474144248398), (137, 18445769474144248398), (138, 18445769474144248398), (139, 18445769474144248398), (140, 18445769474144248398), (141, 18445769474144248398), (142, 18445769474144248398), (143, 18445769474144248398), (144, 18445769474144248398)],
  [],
  [],
  [],
  [],
  [(81, 18446744073709551614)],
  [],
  [],
  [(86, 18446744073709551614), (87, 18446744073709549566), (99, 18445769491324117582), (111, 18446744073709551614), (112, 18446744073709551614), (113, 18446744073709551614), (114, 18446744073709549566), (121, 18445769491324117582), (122, 18445769766202024526), (123, 18446332716155445838), (124, 18446332716222554702), (125, 18446620928392421966), (126, 18446620928394519118), (127, 18446620928402907726), (128, 18446620928407102030), (129, 18446726481523368526), (130, 18446726481523369806), (131, 18446744073709418462), (132, 18446744073709418462), (133, 18445769474144248398), (134, 18445769474144248398), (135, 18445769474144248398), (136, 18445769474144248398), (137, 18445769474144248398), (138, 18445769474144248398), (139, 18445769474144248398), (140, 18445769474144248398), (141, 18445769474144248398), (142, 18445769474144248398), (143, 18445769474144248398), (144, 18445769474144248398)],
  [],
  [(93, 18446744073709551614), (95, 18446744073709551614), (97, 18446744073709551614), (112, 18446744073709551614)],
  [(86, 18446744073709551614), (87, 18446744073709549566), (111, 18446744073709551614), (112, 18446744073709551614), (113, 18446744073709551614), (114, 18446744073709549566), (132, 18446744073709418462), (144, 18445769474144248398)],
  [(86, 18446744073709551614), (87, 18446744073709549566), (111, 18446744073709551614), (112, 18446744073709551614), (113, 18446744073709551614), (114, 18446744073709549566), (132, 18446744073709418462), (144, 18445769474144248398)],
  [(86, 18446744073709551614), (87, 18446744073709549566), (111, 18446744073709551614), (112, 18446744073709551614), (113, 18446744073709551614), (114, 18446744073709549566), (132, 18446744073709418462), (144, 18445769474144248398)],
  [(86, 18446744073709551614), (87, 18446744073709549566), (111, 18446744073709551614), (112, 18446744073709551614), (113, 18446744073709551614), (114, 18446744073709549566), (132, 18446744073709418462), (144, 18445769474144248398)],
  [],
  [],
  [],
  [],
  [(86, 18446744073709551614), (87, 18446744073709549566), (101, 18445769474144248398), (103, 18446744073709551614), (111, 18446744073709551614), (112, 18446744073709551614), (113, 18446744073709551614), (114, 18446744073709549566), (121, 18445769491324117582), (122, 18445769766202024526), (123, 18446332716155445838), (124, 18446332716222554702), (125, 18446620928392421966), (126, 18446620928394519118), (127, 18446620928402907726), (128, 18446620928407102030), (129, 18446726481523368526), (130, 18446726481523369806), (131, 18446744073709418462), (132, 18446744073709418462), (133, 18445769474144248398), (134, 18445769474144248398), (135, 18445769474144248398), (136, 18445769474144248398), (137, 18445769474144248398), (138, 18445769474144248398), (139, 18445769474144248398), (140, 18445769474144248398), (141, 18445769474144248398), (142, 18445769474144248398), (143, 18445769474144248398), (144, 18445769474144248398)],
  [(86, 18446744073709551614), (87, 18446744073709549566), (101, 18445769474144248398), (107, 18445769474144248398), (108, 18445769474144248398), (109, 18446462598732706526), (111, 18446744073709551614), (112, 18446744073709551614), (113, 18446744073709551614), (114, 18446744073709549566), (121, 18445769491324117582), (122, 18445769766202024526), (123, 18446332716155445838), (124, 18446332716222554702), (125, 18446620928392421966), (126, 18446620928394519118), (127, 18446620928402907726), (128, 18446620928407102030), (129, 18446726481523368526), (130, 18446726481523369806), (131, 18446744073709418462), (132, 18446744073709418462), (133, 18445769474144248398), (134, 18445769474144248398), (135, 18445769474144248398), (136, 18445769474144248398), (137, 18445769474144248398), (138, 18445769474144248398), (139, 18445769474144248398), (140, 18445769474144248398), (141, 18445769474144248398), (142, 18445769474144248398), (143, 18445769474144248398), (144, 18445769474144248398)],
  [(86, 18446744073709551614), (87, 18446744073709549566), (101, 18445769474144248398), (103, 18446744073709551614), (111, 18446744073709551614), (112, 18446744073709551614), (113, 18446744073709551614), (114, 18446744073709549566), (121, 18445769491324117582), (122, 18445769766202024526), (123, 18446332716155445838), (124, 18446332716222554702), (125, 18446620928392421966), (126, 18446620928394519118), (127, 18446620928402907726), (128, 18446620928407102030), (129, 18446726481523368526), (130, 18446726481523369806), (131, 18446744073709418462), (132, 18446744073709418462), (133, 18445769474144248398), (134, 18445769474144248398), (135, 18445769474144248398), (136, 18445769474144248398), (137, 18445769474144248398), (138, 18445769474144248398), (139, 18445769474144248398), (140, 18445769474144248398), (141, 18445769474144248398), (142, 18445769474144248398), (143, 18445769474144248398), (144, 18445769474144248398)],
  [],
  [],
  [],
  [],
  [],
  [(85, 18446744073709551614)],
  [(65, 18446744073709551614), (66, 17870283321406128126), (82, 18446744073709551614), (84, 18446744073709551614), (86, 18446744073709551614), (87, 18446744073709549566), (99, 18445769491324117582), (111, 18446744073709551614), (112, 18446744073709551614), (113, 18446744073709551614), (114, 18446744073709549566), (121, 18445769491324117582), (122, 18445769766202024526), (123, 18446332716155445838), (124, 18446332716222554702), (125, 18446620928392421966), (126, 18446620928394519118), (127, 18446620928402907726), (128, 18446620928407102030), (129, 18446726481523368526), (130, 18446726481523369806), (131, 18446744073709418462), (132, 18446744073709418462), (133, 18445769474144248398), (134, 18445769474144248398), (135, 18445769474144248398), (136, 18445769474144248398), (137, 18445769474144248398), (138, 18445769474144248398), (139, 18445769474144248398), (140, 18445769474144248398), (141, 18445769474144248398), (142, 18445769474144248398), (143, 18445769474144248398), (144, 18445769474144248398)],
  [],
  [],
  [(86, 18446744073709551614), (87, 18446744073709549566), (99, 18445769491324117582), (111, 18446744073709551614), (112, 18446744073709551614), (113, 18446744073709551614), (114, 18446744073709549566), (121, 18445769491324117582), (122, 18445769766202024526), (123, 18446332716155445838), (124, 18446332716222554702), (125, 18446620928392421966), (126, 18446620928394519118), (127, 18446620928402907726), (128, 18446620928407102030), (129, 18446726481523368526), (130, 18446726481523369806), (131, 18446744073709418462), (132, 18446744073709418462), (133, 18445769474144248398), (134, 18445769474144248398), (135, 18445769474144248398), (136, 18445769474144248398), (137, 18445769474144248398), (138, 18445769474144248398), (139, 18445769474144248398), (140, 18445769474144248398), (141, 18445769474144248398), (142, 18445769474144248398), (143, 18445769474144248398), (144, 18445769474144248398)],
  [(86, 18446744073709551614), (87, 18446744073709549566), (99, 18445769491324117582), (111, 18446744073709551614), (112, 18446744073709551614), (113, 18446744073709551614), (114, 18446744073709549566), (121, 18445769491324117582), (122, 18445769766202024526), (123, 18446332716155445838), (124, 18446332716222554702), (125, 18446620928392421966), (126, 18446620928394519118), (127, 18446620928402907726), (128, 18446620928407102030), (129, 18446726481523368526), (130, 18446726481523369806), (131, 18446744073709418462), (132, 18446744073709418462), (133, 18445769474144248398), (134, 18445769474144248398), (135, 18445769474144248398), (136, 18445769474144248398), (137, 18445769474144248398), (138, 18445769474144248398), (139, 18445769474144248398), (140, 18445769474144248398), (141, 18445769474144248398), (142, 18445769474144248398), (143, 18445769474144248398), (144, 18445769474144248398)],
  [(86, 18446744073709551614), (87, 18446744073709549566), (111, 18446744073709551614), (112, 18446744073709551614), (113, 18446744073709551614), (114, 18446744073709549566), (122, 18445769766202024526), (123, 18446332716155445838), (124, 18446332716222554702), (125, 18446620928392421966), (126, 18446620928394519118), (127, 18446620928402907726), (128, 18446620928407102030), (129, 18446726481523368526), (130, 18446726481523369806), (131, 18446744073709418462), (132, 18446744073709418462), (134, 18445769474144248398), (135, 18445769474144248398), (136, 18445769474144248398), (137, 18445769474144248398), (138, 18445769474144248398), (139, 18445769474144248398), (140, 18445769474144248398), (141, 18445769474144248398), (142, 18445769474144248398), (143, 18445769474144248398), (144, 18445769474144248398)],
  [],
  [(86, 18446744073709551614), (87, 18446744073709549566), (111, 18446744073709551614), (112, 18446744073709551614), (113, 18446744073709551614), (114, 18446744073709549566), (121, 18445769491324117582), (122, 18445769766202024526), (123, 18446332716155445838), (124, 18446332716222554702), (125, 18446620928392421966), (126, 18446620928394519118), (127, 18446620928402907726), (128, 18446620928407102030), (129, 18446726481523368526), (130, 18446726481523369806), (131, 18446744073709418462), (132, 18446744073709418462), (133, 18445769474144248398), (134, 18445769474144248398), (135, 18445769474144248398), (136, 18445769474144248398), (137, 18445769474144248398), (138, 18445769474144248398), (139, 18445769474144248398), (140, 18445769474144248398), (141, 18445769474144248398), (142, 18445769474144248398), (143, 18445769474144248398), (144, 18445769474144248398)],
  [(86, 18446744073709551614), (87, 18446744073709549566), (99, 18445769491324117582), (111, 18446744073709551614), (112, 18446744073709551614), (113, 18446744073709551614), (114, 18446744073709549566), (121, 18445769491324117582), (122, 18445769766202024526), (123, 18446332716155445838), (124, 18446332716222554702), (125, 18446620928392421966), (126, 18446620928394519118), (127, 18446620928402907726), (128, 18446620928407102030), (129, 18446726481523368526), (130, 18446726481523369806), (131, 18446744073709418462), (132, 18446744073709418462), (133, 18445769474144248398), (134, 18445769474144248398), (135, 18445769474144248398), (136, 18445769474144248398), (137, 18445769474144248398), (138, 18445769474144248398), (139, 18445769474144248398), (140, 18445769474144248398), (141, 18445769474144248398), (142, 18445769474144248398), (143, 18445769474144248398), (144, 18445769474144248398)],
  [],
  [],
  [(86, 18446744073709551614), (87, 18446744073709549566), (111, 18446744073709551614), (112, 18446744073709551614), (113, 18446744073709551614), (114, 18446744073709549566), (132, 18446744073709418462), (144, 18445769474144248398)],
  [(86, 18446744073709551614), (87, 18446744073709549566), (111, 18446744073709551614), (112, 18446744073709551614), (113, 18446744073709551614), (114, 18446744073709549566), (132, 18446744073709418462), (144, 18445769474144248398)],
  [(86, 18446744073709551614), (87, 18446744073709549566), (111, 18446744073709551614), (112, 18446744073709551614), (113, 18446744073709551614), (114, 18446744073709549566), (132, 18446744073709418462), (144, 18445769474144248398)],
  [(86, 18446744073709551614), (87, 18446744073709549566), (111, 18446744073709551614), (112, 18446744073709551614), (113, 18446744073709551614), (114, 18446744073709549566), (132, 18446744073709418462), (144, 18445769474144248398)],
  [(86, 18446744073709551614), (87, 18446744073709549566), (111, 18446744073709551614), (112, 18446744073709551614), (113, 18446744073709551614), (114, 18446744073709549566), (131, 18446744073709418462), (132, 18446744073709418462), (143, 18445769474144248398), (144, 18445769474144248398)],
  [(86, 18446744073709551614), (87, 18446744073709549566), (111, 18446744073709551614), (112, 18446744073709551614), (113, 18446744073709551614), (114, 18446744073709549566), (131, 18446744073709418462), (132, 18446744073709418462), (143, 18445769474144248398), (144, 18445769474144248398)],
  [(86, 18446744073709551614), (87, 18446744073709549566), (111, 18446744073709551614), (112, 18446744073709551614), (113, 18446744073709551614), (114, 18446744073709549566), (126, 18446620928394519118), (127, 18446620928402907726), (128, 18446620928407102030), (129, 18446726481523368526), (130, 18446726481523369806), (131, 18446744073709418462), (132, 18446744073709418462), (138, 18445769474144248398), (139, 18445769474144248398), (140, 18445769474144248398), (141, 18445769474144248398), (142, 18445769474144248398), (143, 18445769474144248398), (144, 18445769474144248398)],
  [(86, 18446744073709551614), (87, 18446744073709549566), (111, 18446744073709551614), (112, 18446744073709551614), (113, 18446744073709551614), (114, 18446744073709549566), (126, 18446620928394519118), (127, 18446620928402907726), (128, 18446620928407102030), (129, 18446726481523368526), (130, 18446726481523369806), (131, 18446744073709418462), (132, 18446744073709418462), (138, 18445769474144248398), (139, 18445769474144248398), (140, 18445769474144248398), (141, 18445769474144248398), (142, 18445769474144248398), (143, 18445769474144248398), (144, 18445769474144248398)],
  [(86, 18446744073709551614), (87, 18446744073709549566), (111, 18446744073709551614), (112, 18446744073709551614), (113, 18446744073709551614), (114, 18446744073709549566), (126, 18446620928394519118), (127, 18446620928402907726), (128, 18446620928407102030), (129, 18446726481523368526), (130, 18446726481523369806), (131, 18446744073709418462), (132, 18446744073709418462), (138, 18445769474144248398), (139, 18445769474144248398), (140, 18445769474144248398), (141, 18445769474144248398), (142, 18445769474144248398), (143, 18445769474144248398), (144, 18445769474144248398)],
  [(86, 18446744073709551614), (87, 18446744073709549566), (111, 18446744073709551614), (112, 18446744073709551614), (113, 18446744073709551614), (114, 18446744073709549566), (126, 18446620928394519118), (127, 18446620928402907726), (128, 18446620928407102030), (129, 18446726481523368526), (130, 18446726481523369806), (131, 18446744073709418462), (132, 18446744073709418462), (138, 18445769474144248398), (139, 18445769474144248398), (140, 18445769474144248398), (141, 18445769474144248398), (142, 18445769474144248398), (143, 18445769474144248398), (144, 18445769474144248398)],
  [(86, 18446744073709551614), (87, 18446744073709549566), (111, 18446744073709551614), (112, 18446744073709551614), (113, 18446744073709551614), (114, 18446744073709549566), (126, 18446620928394519118), (127, 18446620928402907726), (128, 18446620928407102030), (129, 18446726481523368526), (130, 18446726481523369806), (131, 18446744073709418462), (132, 18446744073709418462), (138, 18445769474144248398), (139, 18445769474144248398), (140, 18445769474144248398), (141, 18445769474144248398), (142, 18445769474144248398), (143, 18445769474144248398), (144, 18445769474144248398)],
  [(86, 18446744073709551614), (87, 18446744073709549566), (111, 18446744073709551614), (112, 18446744073709551614), (113, 18446744073709551614), (114, 18446744073709549566), (126, 18446620928394519118), (127, 18446620928402907726), (128, 18446620928407102030), (129, 18446726481523368526), (130, 18446726481523369806), (131, 18446744073709418462), (132, 18446744073709418462), (138, 18445769474144248398), (139, 18445769474144248398), (140, 18445769474144248398), (141, 18445769474144248398), (142, 18445769474144248398), (143, 18445769474144248398), (144, 18445769474144248398)],
  [(86, 18446744073709551614), (87, 18446744073709549566), (111, 18446744073709551614), (112, 18446744073709551614), (113, 18446744073709551614), (114, 18446744073709549566), (126, 18446620928394519118), (127, 18446620928402907726), (128, 18446620928407102030), (129, 18446726481523368526), (130, 18446726481523369806), (131, 18446744073709418462), (132, 18446744073709418462), (138, 18445769474144248398), (139, 18445769474144248398), (140, 18445769474144248398), (141, 18445769474144248398), (142, 18445769474144248398), (143, 18445769474144248398), (144, 18445769474144248398)],
  [],
  [(86, 18446744073709551614), (87, 18446744073709549566), (111, 18446744073709551614), (112, 18446744073709551614), (113, 18446744073709551614), (114, 18446744073709549566), (124, 18446332716222554702), (125, 18446620928392421966), (126, 18446620928394519118), (127, 18446620928402907726), (128, 18446620928407102030), (129, 18446726481523368526), (130, 18446726481523369806), (131, 18446744073709418462), (132, 18446744073709418462), (136, 18445769474144248398), (137, 18445769474144248398), (138, 18445769474144248398), (139, 18445769474144248398), (140, 18445769474144248398), (141, 18445769474144248398), (142, 18445769474144248398), (143, 18445769474144248398), (144, 18445769474144248398)],
  [(86, 18446744073709551614), (87, 18446744073709549566), (111, 18446744073709551614), (112, 18446744073709551614), (113, 18446744073709551614), (114, 18446744073709549566), (125, 18446620928392421966), (126, 18446620928394519118), (127, 18446620928402907726), (128, 18446620928407102030), (129, 18446726481523368526), (130, 18446726481523369806), (131, 18446744073709418462), (132, 18446744073709418462), (137, 18445769474144248398), (138, 18445769474144248398), (139, 18445769474144248398), (140, 18445769474144248398), (141, 18445769474144248398), (142, 18445769474144248398), (143, 18445769474144248398), (144, 18445769474144248398)],
  [(86, 18446744073709551614), (87, 18446744073709549566), (111, 18446744073709551614), (112, 18446744073709551614), (113, 18446744073709551614), (114, 18446744073709549566), (127, 18446620928402907726), (128, 18446620928407102030), (129, 18446726481523368526), (130, 18446726481523369806), (131, 18446744073709418462), (132, 18446744073709418462), (139, 18445769474144248398), (140, 18445769474144248398), (141, 18445769474144248398), (142, 18445769474144248398), (143, 18445769474144248398), (144, 18445769474144248398)],
  [(86, 18446744073709551614), (87, 18446744073709549566), (111, 18446744073709551614), (112, 18446744073709551614), (113, 18446744073709551614), (114, 18446744073709549566), (129, 18446726481523368526), (130, 18446726481523369806), (131, 18446744073709418462), (132, 18446744073709418462), (141, 18445769474144248398), (142, 18445769474144248398), (143, 18445769474144248398), (144, 18445769474144248398)],
  [(86, 18446744073709551614), (87, 18446744073709549566), (111, 18446744073709551614), (112, 18446744073709551614), (113, 18446744073709551614), (114, 18446744073709549566), (128, 18446620928407102030), (129, 18446726481523368526), (130, 18446726481523369806), (131, 18446744073709418462), (132, 18446744073709418462), (140, 18445769474144248398), (141, 18445769474144248398), (142, 18445769474144248398), (143, 18445769474144248398), (144, 18445769474144248398)],
  [(86, 18446744073709551614), (87, 18446744073709549566), (111, 18446744073709551614), (112, 18446744073709551614), (113, 18446744073709551614), (114, 18446744073709549566), (130, 18446726481523369806), (131, 18446744073709418462), (132, 18446744073709418462), (142, 18445769474144248398), (143, 18445769474144248398), (144, 18445769474144248398)],
  [(86, 18446744073709551614), (87, 18446744073709549566), (111, 18446744073709551614), (112, 18446744073709551614), (113, 18446744073709551614), (114, 18446744073709549566), (130, 18446726481523369806), (131, 18446744073709418462), (132, 18446744073709418462), (142, 18445769474144248398), (143, 18445769474144248398), (144, 18445769474144248398)],
  [(86, 18446744073709551614), (87, 18446744073709549566), (111, 18446744073709551614), (112, 18446744073709551614), (113, 18446744073709551614), (114, 18446744073709549566), (123, 18446332716155445838), (124, 18446332716222554702), (125, 18446620928392421966), (126, 18446620928394519118), (127, 18446620928402907726), (128, 18446620928407102030), (129, 18446726481523368526), (130, 18446726481523369806), (131, 18446744073709418462), (132, 18446744073709418462), (135, 18445769474144248398), (136, 18445769474144248398), (137, 18445769474144248398), (138, 18445769474144248398), (139, 18445769474144248398), (140, 18445769474144248398), (141, 18445769474144248398), (142, 18445769474144248398), (143, 18445769474144248398), (144, 18445769474144248398)],
  [(86, 18446744073709551614), (87, 18446744073709549566), (111, 18446744073709551614), (112, 18446744073709551614), (113, 18446744073709551614), (114, 18446744073709549566), (121, 18445769491324117582), (122, 18445769766202024526), (123, 18446332716155445838), (124, 18446332716222554702), (125, 18446620928392421966), (126, 18446620928394519118), (127, 18446620928402907726), (128, 18446620928407102030), (129, 18446726481523368526), (130, 18446726481523369806), (131, 18446744073709418462), (132, 18446744073709418462), (133, 18445769474144248398), (134, 18445769474144248398), (135, 18445769474144248398), (136, 18445769474144248398), (137, 18445769474144248398), (138, 18445769474144248398), (139, 18445769474144248398), (140, 18445769474144248398), (141, 18445769474144248398), (142, 18445769474144248398), (143, 18445769474144248398), (144, 18445769474144248398)],
  [],
  [],
  [],
  [(88, 18446744073709551102), (89, 18445769474144248398), (105, 18446744073709551614), (106, 18446744073709551102)],
  [(86, 18446744073709551614), (87, 18446744073709549566), (99, 18445769491324117582), (100, 18446462598732706526), (111, 18446744073709551614), (112, 18446744073709551614), (113, 18446744073709551614), (114, 18446744073709549566), (121, 18445769491324117582), (122, 18445769766202024526), (123, 18446332716155445838), (124, 18446332716222554702), (125, 18446620928392421966), (126, 18446620928394519118), (127, 18446620928402907726), (128, 18446620928407102030), (129, 18446726481523368526), (130, 18446726481523369806), (131, 18446744073709418462), (132, 18446744073709418462), (133, 18445769474144248398), (134, 18445769474144248398), (135, 18445769474144248398), (136, 18445769474144248398), (137, 18445769474144248398), (138, 18445769474144248398), (139, 18445769474144248398), (140, 18445769474144248398), (141, 18445769474144248398), (142, 18445769474144248398), (143, 18445769474144248398), (144, 18445769474144248398)],
  [],
  [(104, 18446744073709551614)],
  [],
  [],
  [(112, 18446744073709551614)],
  [(112, 18446744073709551614)],
  [],
  [],
  [],
  [],
  [(105, 18446744073709551614), (106, 18446744073709551102)],
  [],
  [(115, 18445769491324117582), (116, 18445769474144248398), (117, 18445769491324117582), (118, 18445769474144248398), (119, 18445769474144248398)],
  [(105, 18446744073709551614), (106, 18446744073709551102)],
  [(115, 18445769491324117582), (116, 18445769474144248398), (117, 18445769491324117582), (118, 18445769474144248398), (119, 18445769474144248398)],
  [],
  [(104, 18446744073709551102), (105, 18446744073709551614)],
  [],
  [(105, 18446744073709551614)],
  [],
  [],
  [],
  [],
  [],
  [(84, 18446744073709551614), (86, 18446744073709551614), (87, 18446744073709549566), (99, 18445769491324117582), (111, 18446744073709551614), (112, 18446744073709551614), (113, 18446744073709551614), (114, 18446744073709549566), (121, 18445769491324117582), (122, 18445769766202024526), (123, 18446332716155445838), (124, 18446332716222554702), (125, 18446620928392421966), (126, 18446620928394519118), (127, 18446620928402907726), (128, 18446620928407102030), (129, 18446726481523368526), (130, 18446726481523369806), (131, 18446744073709418462), (132, 18446744073709418462), (133, 18445769474144248398), (134, 18445769474144248398), (135, 18445769474144248398), (136, 18445769474144248398), (137, 18445769474144248398), (138, 18445769474144248398), (139, 18445769474144248398), (140, 18445769474144248398), (141, 18445769474144248398), (142, 18445769474144248398), (143, 18445769474144248398), (144, 18445769474144248398)],
  [],
  [(68, 18446744073709551614)],
  [(67, 18446744073709551614)],
  [(86, 18446744073709551614), (87, 18446744073709549566), (99, 18445769491324117582), (111, 18446744073709551614), (112, 18446744073709551614), (113, 18446744073709551614), (114, 18446744073709549566), (121, 18445769491324117582), (122, 18445769766202024526), (123, 18446332716155445838), (124, 18446332716222554702), (125, 18446620928392421966), (126, 18446620928394519118), (127, 18446620928402907726), (128, 18446620928407102030), (129, 18446726481523368526), (130, 18446726481523369806), (131, 18446744073709418462), (132, 18446744073709418462), (133, 18445769474144248398), (134, 18445769474144248398), (135, 18445769474144248398), (136, 18445769474144248398), (137, 18445769474144248398), (138, 18445769474144248398), (139, 18445769474144248398), (140, 18445769474144248398), (141, 18445769474144248398), (142, 18445769474144248398), (143, 18445769474144248398), (144, 18445769474144248398)],
  [(86, 18446744073709551614), (87, 18446744073709549566), (111, 18446744073709551614), (112, 18446744073709551614), (113, 18446744073709551614), (114, 18446744073709549566)],
  [],
  [],
  [],
  [],
  [],
  [(65, 18446744073709551614), (66, 17870283321406128126), (82, 18446744073709551614), (84, 18446744073709551614), (86, 18446744073709551614), (87, 18446744073709549566), (99, 18445769491324117582), (111, 18446744073709551614), (112, 18446744073709551614), (113, 18446744073709551614), (114, 18446744073709549566), (121, 18445769491324117582), (122, 18445769766202024526), (123, 18446332716155445838), (124, 18446332716222554702), (125, 18446620928392421966), (126, 18446620928394519118), (127, 18446620928402907726), (128, 18446620928407102030), (129, 18446726481523368526), (130, 18446726481523369806), (131, 18446744073709418462), (132, 18446744073709418462), (133, 18445769474144248398), (134, 18445769474144248398), (135, 18445769474144248398), (136, 18445769474144248398), (137, 18445769474144248398), (138, 18445769474144248398), (139, 18445769474144248398), (140, 18445769474144248398), (141, 18445769474144248398), (142, 18445769474144248398), (143, 18445769474144248398), (144, 18445769474144248398)],
  [],
  [],
  [],
  [],
  [],
  [],
  [],
  [],
  [],
  [],
  [],
  [],
  [],
  [],
  [(86, 18446744073709551614), (87, 18446744073709549566), (111, 18446744073709551614), (112, 18446744073709551614), (113, 18446744073709551614), (114, 18446744073709549566), (126, 18446620928394519118), (127, 18446620928402907726), (128, 18446620928407102030), (129, 18446726481523368526), (130, 18446726481523369806), (131, 18446744073709418462), (132, 18446744073709418462), (138, 18445769474144248398), (139, 18445769474144248398), (140, 18445769474144248398), (141, 18445769474144248398), (142, 18445769474144248398), (143, 18445769474144248398), (144, 18445769474144248398)],
  [],
  [],
  [],
  [],
  [],
  [],
  [],
  [],
  [],
  [(94, 18446744073709551614), (96, 18446744073709551614), (97, 18446744073709551614), (98, 18446744073709551614), (112, 18446744073709551614)],
  [(65, 18446744073709551614), (66, 17870283321406128126), (82, 18446744073709551614), (84, 18446744073709551614), (86, 18446744073709551614), (87, 18446744073709549566), (99, 18445769491324117582), (111, 18446744073709551614), (112, 18446744073709551614), (113, 18446744073709551614), (114, 18446744073709549566), (121, 18445769491324117582), (122, 18445769766202024526), (123, 18446332716155445838), (124, 18446332716222554702), (125, 18446620928392421966), (126, 18446620928394519118), (127, 18446620928402907726), (128, 18446620928407102030), (129, 18446726481523368526), (130, 18446726481523369806), (131, 18446744073709418462), (132, 18446744073709418462), (133, 18445769474144248398), (134, 18445769474144248398), (135, 18445769474144248398), (136, 18445769474144248398), (137, 18445769474144248398), (138, 18445769474144248398), (139, 18445769474144248398), (140, 18445769474144248398), (141, 18445769474144248398), (142, 18445769474144248398), (143, 18445769474144248398), (144, 18445769474144248398)],
  [],
  [],
  [(105, 18446744073709551614), (106, 18446744073709551102)],
  [(86, 18446744073709551614), (87, 18446744073709549566), (90, 18445769474144248398), (111, 18446744073709551614), (112, 18446744073709551614), (113, 18446744073709551614), (114, 18446744073709549566), (121, 18445769491324117582), (122, 18445769766202024526), (123, 18446332716155445838), (124, 18446332716222554702), (125, 18446620928392421966), (126, 18446620928394519118), (127, 18446620928402907726), (128, 18446620928407102030), (129, 18446726481523368526), (130, 18446726481523369806), (131, 18446744073709418462), (132, 18446744073709418462), (133, 18445769474144248398), (134, 18445769474144248398), (135, 18445769474144248398), (136, 18445769474144248398), (137, 18445769474144248398), (138, 18445769474144248398), (139, 18445769474144248398), (140, 18445769474144248398), (141, 18445769474144248398), (142, 18445769474144248398), (143, 18445769474144248398), (144, 18445769474144248398)],
  [],
  [],
  [],
  [],
  [(86, 18446744073709551614), (87, 18446744073709549566), (111, 18446744073709551614), (112, 18446744073709551614), (113, 18446744073709551614), (114, 18446744073709549566), (121, 18445769491324117582), (122, 18445769766202024526), (123, 18446332716155445838), (124, 18446332716222554702), (125, 18446620928392421966), (126, 18446620928394519118), (127, 18446620928402907726), (128, 18446620928407102030), (129, 18446726481523368526), (130, 18446726481523369806), (131, 18446744073709418462), (132, 18446744073709418462), (133, 18445769474144248398), (134, 18445769474144248398), (135, 18445769474144248398), (136, 18445769474144248398), (137, 18445769474144248398), (138, 18445769474144248398), (139, 18445769474144248398), (140, 18445769474144248398), (141, 18445769474144248398), (142, 18445769474144248398), (143, 18445769474144248398), (144, 18445769474144248398), (145, 18445769474144248398)],
  [],
  [(97, 18446744073709551614), (112, 18446744073709551614)],
  [(86, 18446744073709551614), (87, 18446744073709549566), (111, 18446744073709551614), (112, 18446744073709551614), (113, 18446744073709551614), (114, 18446744073709549566), (121, 18445769491324117582), (122, 18445769766202024526), (123, 18446332716155445838), (124, 18446332716222554702), (125, 18446620928392421966), (126, 18446620928394519118), (127, 18446620928402907726), (128, 18446620928407102030), (129, 18446726481523368526), (130, 18446726481523369806), (131, 18446744073709418462), (132, 18446744073709418462), (133, 18445769474144248398), (134, 18445769474144248398), (135, 18445769474144248398), (136, 18445769474144248398), (137, 18445769474144248398), (138, 18445769474144248398), (139, 18445769474144248398), (140, 18445769474144248398), (141, 18445769474144248398), (142, 18445769474144248398), (143, 18445769474144248398), (144, 18445769474144248398)],
  [],
  [],
  [(111, 18446744073709551614)],
  [],
  [(115, 18445769491324117582), (116, 18445769474144248398), (117, 18445769491324117582), (118, 18445769474144248398)],
  [],
  [],
  [(86, 18446744073709551614), (87, 18446744073709549566), (110, 18446744073709418462), (111, 18446744073709551614), (112, 18446744073709551614), (113, 18446744073709551614), (114, 18446744073709549566)],
  [(86, 18446744073709551614), (87, 18446744073709549566), (111, 18446744073709551614), (112, 18446744073709551614), (113, 18446744073709551614), (114, 18446744073709549566), (121, 18445769491324117582), (122, 18445769766202024526), (123, 18446332716155445838), (124, 18446332716222554702), (125, 18446620928392421966), (126, 18446620928394519118), (127, 18446620928402907726), (128, 18446620928407102030), (129, 18446726481523368526), (130, 18446726481523369806), (131, 18446744073709418462), (132, 18446744073709418462), (133, 18445769474144248398), (134, 18445769474144248398), (135, 18445769474144248398), (136, 18445769474144248398), (137, 18445769474144248398), (138, 18445769474144248398), (139, 18445769474144248398), (140, 18445769474144248398), (141, 18445769474144248398), (142, 18445769474144248398), (143, 18445769474144248398), (144, 18445769474144248398)],
  [],
  [(115, 18445769491324117582), (116, 18445769474144248398), (117, 18445769491324117582), (118, 18445769474144248398)],
  [],
  [],
  [(86, 18446744073709551614), (87, 18446744073709549566), (111, 18446744073709551614), (112, 18446744073709551614), (113, 18446744073709551614), (114, 18446744073709549566), (121, 18445769491324117582), (122, 18445769766202024526), (123, 18446332716155445838), (124, 18446332716222554702), (125, 18446620928392421966), (126, 18446620928394519118), (127, 18446620928402907726), (128, 18446620928407102030), (129, 18446726481523368526), (130, 18446726481523369806), (131, 18446744073709418462), (132, 18446744073709418462), (133, 18445769474144248398), (134, 18445769474144248398), (135, 18445769474144248398), (136, 18445769474144248398), (137, 18445769474144248398), (138, 18445769474144248398), (139, 18445769474144248398), (140, 18445769474144248398), (141, 18445769474144248398), (142, 18445769474144248398), (143, 18445769474144248398), (144, 18445769474144248398)],
  [],
  [(86, 18446744073709551614), (87, 18446744073709549566), (111, 18446744073709551614), (112, 18446744073709551614), (113, 18446744073709551614), (114, 18446744073709549566), (121, 18445769491324117582), (122, 18445769766202024526), (123, 18446332716155445838), (124, 18446332716222554702), (125, 18446620928392421966), (126, 18446620928394519118), (127, 18446620928402907726), (128, 18446620928407102030), (129, 18446726481523368526), (130, 18446726481523369806), (131, 18446744073709418462), (132, 18446744073709418462), (133, 18445769474144248398), (134, 18445769474144248398), (135, 18445769474144248398), (136, 18445769474144248398), (137, 18445769474144248398), (138, 18445769474144248398), (139, 18445769474144248398), (140, 18445769474144248398), (141, 18445769474144248398), (142, 18445769474144248398), (143, 18445769474144248398), (144, 18445769474144248398)],
  [(86, 18446744073709551614), (87, 18446744073709549566), (107, 18445769474144248398), (111, 18446744073709551614), (112, 18446744073709551614), (113, 18446744073709551614), (114, 18446744073709549566), (121, 18445769491324117582), (122, 18445769766202024526), (123, 18446332716155445838), (124, 18446332716222554702), (125, 18446620928392421966), (126, 18446620928394519118), (127, 18446620928402907726), (128, 18446620928407102030), (129, 18446726481523368526), (130, 18446726481523369806), (131, 18446744073709418462), (132, 18446744073709418462), (133, 18445769474144248398), (134, 18445769474144248398), (135, 18445769474144248398), (136, 18445769474144248398), (137, 18445769474144248398), (138, 18445769474144248398), (139, 18445769474144248398), (140, 18445769474144248398), (141, 18445769474144248398), (142, 18445769474144248398), (143, 18445769474144248398), (144, 18445769474144248398)],
  [],
  [],
  [],
  [],
  [],
  [],
  [],
  [],
  [(65, 18446744073709551614), (66, 17870283321406128126), (82, 18446744073709551614), (84, 18446744073709551614), (86, 18446744073709551614), (87, 18446744073709549566), (99, 18445769491324117582), (111, 18446744073709551614), (112, 18446744073709551614), (113, 18446744073709551614), (114, 18446744073709549566), (121, 18445769491324117582), (122, 18445769766202024526), (123, 18446332716155445838), (124, 18446332716222554702), (125, 18446620928392421966), (126, 18446620928394519118), (127, 18446620928402907726), (128, 18446620928407102030), (129, 18446726481523368526), (130, 18446726481523369806), (131, 18446744073709418462), (132, 18446744073709418462), (133, 18445769474144248398), (134, 18445769474144248398), (135, 18445769474144248398), (136, 18445769474144248398), (137, 18445769474144248398), (138, 18445769474144248398), (139, 18445769474144248398), (140, 18445769474144248398), (141, 18445769474144248398), (142, 18445769474144248398), (143, 18445769474144248398), (144, 18445769474144248398)],
  [],
  [],
  [(86, 18446744073709551614), (87, 18446744073709549566), (111, 18446744073709551614), (112, 18446744073709551614), (113, 18446744073709551614), (114, 18446744073709549566), (122, 18445769766202024526), (123, 18446332716155445838), (124, 18446332716222554702), (125, 18446620928392421966), (126, 18446620928394519118), (127, 18446620928402907726), (128, 18446620928407102030), (129, 18446726481523368526), (130, 18446726481523369806), (131, 18446744073709418462), (132, 18446744073709418462), (134, 18445769474144248398), (135, 18445769474144248398), (136, 18445769474144248398), (137, 18445769474144248398), (138, 18445769474144248398), (139, 18445769474144248398), (140, 18445769474144248398), (141, 18445769474144248398), (142, 18445769474144248398), (143, 18445769474144248398), (144, 18445769474144248398)],
  [],
  [(104, 18446744073709551614)],
  [],
  [],
  [],
  [(112, 18446744073709551614)],
  [(112, 18446744073709551614)],
  [],
  [],
  [],
  [(86, 18446744073709551614), (87, 18446744073709549566), (90, 18445769474144248398), (111, 18446744073709551614), (112, 18446744073709551614), (113, 18446744073709551614), (114, 18446744073709549566), (121, 18445769491324117582), (122, 18445769766202024526), (123, 18446332716155445838), (124, 18446332716222554702), (125, 18446620928392421966), (126, 18446620928394519118), (127, 18446620928402907726), (128, 18446620928407102030), (129, 18446726481523368526), (130, 18446726481523369806), (131, 18446744073709418462), (132, 18446744073709418462), (133, 18445769474144248398), (134, 18445769474144248398), (135, 18445769474144248398), (136, 18445769474144248398), (137, 18445769474144248398), (138, 18445769474144248398), (139, 18445769474144248398), (140, 18445769474144248398), (141, 18445769474144248398), (142, 18445769474144248398), (143, 18445769474144248398), (144, 18445769474144248398)],
  [],
  [],
  [],
  [(86, 18446744073709551614), (87, 18446744073709549566), (111, 18446744073709551614), (112, 18446744073709551614), (113, 18446744073709551614), (114, 18446744073709549566), (121, 18445769491324117582), (122, 18445769766202024526), (123, 18446332716155445838), (124, 18446332716222554702), (125, 18446620928392421966), (126, 18446620928394519118), (127, 18446620928402907726), (128, 18446620928407102030), (129, 18446726481523368526), (130, 18446726481523369806), (131, 18446744073709418462), (132, 18446744073709418462), (133, 18445769474144248398), (134, 18445769474144248398), (135, 18445769474144248398), (136, 18445769474144248398), (137, 18445769474144248398), (138, 18445769474144248398), (139, 18445769474144248398), (140, 18445769474144248398), (141, 18445769474144248398), (142, 18445769474144248398), (143, 18445769474144248398), (144, 18445769474144248398)],
  [(86, 18446744073709551614), (87, 18446744073709549566), (111, 18446744073709551614), (112, 18446744073709551614), (113, 18446744073709551614), (114, 18446744073709549566), (121, 18445769491324117582), (122, 18445769766202024526), (123, 18446332716155445838), (124, 18446332716222554702), (125, 18446620928392421966), (126, 18446620928394519118), (127, 18446620928402907726), (128, 18446620928407102030), (129, 18446726481523368526), (130, 18446726481523369806), (131, 18446744073709418462), (132, 18446744073709418462), (133, 18445769474144248398), (134, 18445769474144248398), (135, 18445769474144248398), (136, 18445769474144248398), (137, 18445769474144248398), (138, 18445769474144248398), (139, 18445769474144248398), (140, 18445769474144248398), (141, 18445769474144248398), (142, 18445769474144248398), (143, 18445769474144248398), (144, 18445769474144248398)],
  [],
  [],
  [(86, 18446744073709551614), (87, 18446744073709549566), (102, 18446462598732706526), (111, 18446744073709551614), (112, 18446744073709551614), (113, 18446744073709551614), (114, 18446744073709549566), (121, 18445769491324117582), (122, 18445769766202024526), (123, 18446332716155445838), (124, 18446332716222554702), (125, 18446620928392421966), (126, 18446620928394519118), (127, 18446620928402907726), (128, 18446620928407102030), (129, 18446726481523368526), (130, 18446726481523369806), (131, 18446744073709418462), (132, 18446744073709418462), (133, 18445769474144248398), (134, 18445769474144248398), (135, 18445769474144248398), (136, 18445769474144248398), (137, 18445769474144248398), (138, 18445769474144248398), (139, 18445769474144248398), (140, 18445769474144248398), (141, 18445769474144248398), (142, 18445769474144248398), (143, 18445769474144248398), (144, 18445769474144248398)],
  [],
  [],
  [],
  [(105, 18446744073709551614)],
  [],
  [],
  [(86, 18446744073709551614), (87, 18446744073709549566), (111, 18446744073709551614), (112, 18446744073709551614), (113, 18446744073709551614), (114, 18446744073709549566), (122, 18445769766202024526), (123, 18446332716155445838), (124, 18446332716222554702), (125, 18446620928392421966), (126, 18446620928394519118), (127, 18446620928402907726), (128, 18446620928407102030), (129, 18446726481523368526), (130, 18446726481523369806), (131, 18446744073709418462), (132, 18446744073709418462), (134, 18445769474144248398), (135, 18445769474144248398), (136, 18445769474144248398), (137, 18445769474144248398), (138, 18445769474144248398), (139, 18445769474144248398), (140, 18445769474144248398), (141, 18445769474144248398), (142, 18445769474144248398), (143, 18445769474144248398), (144, 18445769474144248398)],
  [],
  [],
  [],
  [],
  [],
  [],
  [],
  [(69, 18446744073709551614), (70, 17870283321406128126)],
  [],
  [],
  [],
  [(65, 18446744073709551614), (66, 17870283321406128126), (82, 18446744073709551614), (84, 18446744073709551614), (86, 18446744073709551614), (87, 18446744073709549566), (99, 18445769491324117582), (111, 18446744073709551614), (112, 18446744073709551614), (113, 18446744073709551614), (114, 18446744073709549566), (121, 18445769491324117582), (122, 18445769766202024526), (123, 18446332716155445838), (124, 18446332716222554702), (125, 18446620928392421966), (126, 18446620928394519118), (127, 18446620928402907726), (128, 18446620928407102030), (129, 18446726481523368526), (130, 18446726481523369806), (131, 18446744073709418462), (132, 18446744073709418462), (133, 18445769474144248398), (134, 18445769474144248398), (135, 18445769474144248398), (136, 18445769474144248398), (137, 18445769474144248398), (138, 18445769474144248398), (139, 18445769474144248398), (140, 18445769474144248398), (141, 18445769474144248398), (142, 18445769474144248398), (143, 18445769474144248398), (144, 18445769474144248398)],
  [],
  [],
  [],
  [],
  [(97, 18446744073709551614), (98, 18446744073709551614), (112, 18446744073709551614)],
  [(86, 18446744073709551614), (87, 18446744073709549566), (111, 18446744073709551614), (112, 18446744073709551614), (113, 18446744073709551614), (114, 18446744073709549566), (121, 18445769491324117582), (122, 18445769766202024526), (123, 18446332716155445838), (124, 18446332716222554702), (125, 18446620928392421966), (126, 18446620928394519118), (127, 18446620928402907726), (128, 18446620928407102030), (129, 18446726481523368526), (130, 18446726481523369806), (131, 18446744073709418462), (132, 18446744073709418462), (133, 18445769474144248398), (134, 18445769474144248398), (135, 18445769474144248398), (136, 18445769474144248398), (137, 18445769474144248398), (138, 18445769474144248398), (139, 18445769474144248398), (140, 18445769474144248398), (141, 18445769474144248398), (142, 18445769474144248398), (143, 18445769474144248398), (144, 18445769474144248398)],
  [],
  [],
  [],
  [(86, 18446744073709551614), (87, 18446744073709549566), (111, 18446744073709551614), (112, 18446744073709551614), (113, 18446744073709551614), (114, 18446744073709549566), (121, 18445769491324117582), (122, 18445769766202024526), (123, 18446332716155445838), (124, 18446332716222554702), (125, 18446620928392421966), (126, 18446620928394519118), (127, 18446620928402907726), (128, 18446620928407102030), (129, 18446726481523368526), (130, 18446726481523369806), (131, 18446744073709418462), (132, 18446744073709418462), (133, 18445769474144248398), (134, 18445769474144248398), (135, 18445769474144248398), (136, 18445769474144248398), (137, 18445769474144248398), (138, 18445769474144248398), (139, 18445769474144248398), (140, 18445769474144248398), (141, 18445769474144248398), (142, 18445769474144248398), (143, 18445769474144248398), (144, 18445769474144248398)],
  [],
  [],
  [],
  [],
  [(91, 18446744073709551614), (92, 18446744073709551614), (111, 18446744073709551614), (112, 18446744073709551614)],
  [],
  [(86, 18446744073709551614), (87, 18446744073709549566), (111, 18446744073709551614), (112, 18446744073709551614), (113, 18446744073709551614), (114, 18446744073709549566), (122, 18445769766202024526), (123, 18446332716155445838), (124, 18446332716222554702), (125, 18446620928392421966), (126, 18446620928394519118), (127, 18446620928402907726), (128, 18446620928407102030), (129, 18446726481523368526), (130, 18446726481523369806), (131, 18446744073709418462), (132, 18446744073709418462), (134, 18445769474144248398), (135, 18445769474144248398), (136, 18445769474144248398), (137, 18445769474144248398), (138, 18445769474144248398), (139, 18445769474144248398), (140, 18445769474144248398), (141, 18445769474144248398), (142, 18445769474144248398), (143, 18445769474144248398), (144, 18445769474144248398)],
  [(71, 18446744073709551614), (72, 17870283321406128126), (73, 18446744073709551614), (74, 18446744073709551614), (75, 18446744073709551614), (76, 17870283321406128126), (77, 18446744073709551614), (78, 17870283321406128126), (79, 18446744073709551614), (80, 17870283321406128126), (82, 18446744073709551614), (84, 18446744073709551614), (86, 18446744073709551614), (87, 18446744073709549566), (99, 18445769491324117582), (111, 18446744073709551614), (112, 18446744073709551614), (113, 18446744073709551614), (114, 18446744073709549566), (121, 18445769491324117582), (122, 18445769766202024526), (123, 18446332716155445838), (124, 18446332716222554702), (125, 18446620928392421966), (126, 18446620928394519118), (127, 18446620928402907726), (128, 18446620928407102030), (129, 18446726481523368526), (130, 18446726481523369806), (131, 18446744073709418462), (132, 18446744073709418462), (133, 18445769474144248398), (134, 18445769474144248398), (135, 18445769474144248398), (136, 18445769474144248398), (137, 18445769474144248398), (138, 18445769474144248398), (139, 18445769474144248398), (140, 18445769474144248398), (141, 18445769474144248398), (142, 18445769474144248398), (143, 18445769474144248398), (144, 18445769474144248398)],
  [],
  [],
  [],
  [],
  [(86, 18446744073709551614), (87, 18446744073709549566), (111, 18446744073709551614), (112, 18446744073709551614), (113, 18446744073709551614), (114, 18446744073709549566), (121, 18445769491324117582), (122, 18445769766202024526), (123, 18446332716155445838), (124, 18446332716222554702), (125, 18446620928392421966), (126, 18446620928394519118), (127, 18446620928402907726), (128, 18446620928407102030), (129, 18446726481523368526), (130, 18446726481523369806), (131, 18446744073709418462), (132, 18446744073709418462), (133, 18445769474144248398), (134, 18445769474144248398), (135, 18445769474144248398), (136, 18445769474144248398), (137, 18445769474144248398), (138, 18445769474144248398), (139, 18445769474144248398), (140, 18445769474144248398), (141, 18445769474144248398), (142, 18445769474144248398), (143, 18445769474144248398), (144, 18445769474144248398)],
  [(86, 18446744073709551614), (87, 18446744073709549566), (111, 18446744073709551614), (112, 18446744073709551614), (113, 18446744073709551614), (114, 18446744073709549566), (121, 18445769491324117582), (122, 18445769766202024526), (123, 18446332716155445838), (124, 18446332716222554702), (125, 18446620928392421966), (126, 18446620928394519118), (127, 18446620928402907726), (128, 18446620928407102030), (129, 18446726481523368526), (130, 18446726481523369806), (131, 18446744073709418462), (132, 18446744073709418462), (133, 18445769474144248398), (134, 18445769474144248398), (135, 18445769474144248398), (136, 18445769474144248398), (137, 18445769474144248398), (138, 18445769474144248398), (139, 18445769474144248398), (140, 18445769474144248398), (141, 18445769474144248398), (142, 18445769474144248398), (143, 18445769474144248398), (144, 18445769474144248398)],
  [],
  [],
  [(86, 18446744073709551614), (87, 18446744073709549566), (102, 18446462598732706526), (111, 18446744073709551614), (112, 18446744073709551614), (113, 18446744073709551614), (114, 18446744073709549566), (121, 18445769491324117582), (122, 18445769766202024526), (123, 18446332716155445838), (124, 18446332716222554702), (125, 18446620928392421966), (126, 18446620928394519118), (127, 18446620928402907726), (128, 18446620928407102030), (129, 18446726481523368526), (130, 18446726481523369806), (131, 18446744073709418462), (132, 18446744073709418462), (133, 18445769474144248398), (134, 18445769474144248398), (135, 18445769474144248398), (136, 18445769474144248398), (137, 18445769474144248398), (138, 18445769474144248398), (139, 18445769474144248398), (140, 18445769474144248398), (141, 18445769474144248398), (142, 18445769474144248398), (143, 18445769474144248398), (144, 18445769474144248398)],
  [(105, 18446744073709551614), (106, 18446744073709551102)],
  [],
  [],
  [],
  [],
  [],
  [(86, 18446744073709551614), (87, 18446744073709549566), (111, 18446744073709551614), (112, 18446744073709551614), (113, 18446744073709551614), (114, 18446744073709549566), (121, 18445769491324117582), (122, 18445769766202024526), (123, 18446332716155445838), (124, 18446332716222554702), (125, 18446620928392421966), (126, 18446620928394519118), (127, 18446620928402907726), (128, 18446620928407102030), (129, 18446726481523368526), (130, 18446726481523369806), (131, 18446744073709418462), (132, 18446744073709418462), (133, 18445769474144248398), (134, 18445769474144248398), (135, 18445769474144248398), (136, 18445769474144248398), (137, 18445769474144248398), (138, 18445769474144248398), (139, 18445769474144248398), (140, 18445769474144248398), (141, 18445769474144248398), (142, 18445769474144248398), (143, 18445769474144248398), (144, 18445769474144248398)],
  [],
  [],
  [],
  [],
  [(92, 18446744073709551614), (111, 18446744073709551614), (112, 18446744073709551614)],
  [(111, 18446744073709551614)],
  [],
  [],
  [],
  [],
  []]

/-- shifts and gotos of each state -/
def moveTab : List (List (Nat × Nat)) := [
  [(90, 2)],
  [],
  [(5, 35), (8, 27), (10, 26), (11, 38), (17, 33), (19, 34), (24, 28), (27, 6), (28, 3), (30, 11), (32, 36), (33, 37), (34, 22), (39, 24), (40, 32), (48, 25), (50, 39), (51, 21), (52, 14), (53, 15), (54, 16), (55, 17), (59, 5), (77, 20), (80, 23), (81, 13), (88, 29), (89, 30), (91, 4), (92, 8), (93, 12), (94, 19), (96, 7), (97, 9), (102, 31), (107, 18), (108, 10)],
  [],
  [],
  [],
  [(59, 40)],
  [],
  [],
  [(98, 41)],
  [(13, 42)],
  [(5, 35), (11, 38), (17, 33), (19, 34), (32, 36), (33, 37), (40, 32), (50, 39), (80, 44), (84, 43), (88, 29), (89, 30), (102, 31)],
  [],
  [(9, 47), (15, 45), (25, 46)],
  [(5, 35), (8, 27), (10, 26), (11, 38), (17, 33), (19, 34), (24, 28), (32, 36), (33, 37), (39, 24), (40, 32), (48, 25), (50, 39), (77, 20), (80, 23), (81, 48), (88, 29), (89, 30), (102, 31)],
  [],
  [],
  [],
  [(47, 49)],
  [(35, 51), (36, 52), (95, 50)],
  [(4, 54), (7, 53), (8, 57), (10, 58), (12, 55), (14, 59), (16, 60), (21, 69), (22, 70), (23, 71), (26, 68), (29, 61), (31, 64), (34, 75), (37, 65), (38, 74), (41, 62), (42, 63), (44, 56), (45, 72), (46, 73), (48, 66), (49, 67)],
  [(32, 76)],
  [(5, 35), (8, 27), (10, 26), (11, 38), (17, 33), (19, 34), (24, 28), (32, 36), (33, 37), (39, 24), (40, 32), (48, 25), (50, 39), (77, 20), (80, 23), (81, 77), (88, 29), (89, 30), (102, 31)],
  [(5, 79), (11, 78), (17, 80)],
  [(7, 85), (32, 36), (43, 86), (71, 83), (72, 82), (73, 81), (88, 84)],
  [(5, 35), (8, 27), (10, 26), (11, 38), (17, 33), (19, 34), (24, 28), (32, 36), (33, 37), (39, 24), (40, 32), (48, 25), (50, 39), (77, 87), (80, 23), (88, 29), (89, 30), (102, 31)],
  [(5, 35), (8, 27), (10, 26), (11, 38), (17, 33), (19, 34), (24, 28), (32, 36), (33, 37), (39, 24), (40, 32), (48, 25), (50, 39), (77, 88), (80, 23), (88, 29), (89, 30), (102, 31)],
  [(5, 35), (8, 27), (10, 26), (11, 38), (17, 33), (19, 34), (24, 28), (32, 36), (33, 37), (39, 24), (40, 32), (48, 25), (50, 39), (77, 89), (80, 23), (88, 29), (89, 30), (102, 31)],
  [(5, 35), (8, 27), (10, 26), (11, 38), (17, 33), (19, 34), (24, 28), (32, 36), (33, 37), (39, 24), (40, 32), (48, 25), (50, 39), (77, 90), (80, 23), (88, 29), (89, 30), (102, 31)],
  [],
  [],
  [],
  [(5, 91)],
  [(5, 35), (8, 27), (10, 26), (11, 38), (17, 33), (19, 34), (24, 28), (32, 36), (33, 37), (39, 24), (40, 32), (48, 25), (50, 39), (77, 93), (79, 92), (80, 23), (83, 94), (88, 29), (89, 30), (102, 31)],
  [(5, 35), (8, 27), (10, 26), (11, 38), (17, 33), (19, 34), (24, 28), (32, 36), (33, 37), (39, 24), (40, 32), (48, 25), (50, 39), (77, 98), (80, 23), (83, 97), (88, 29), (89, 30), (99, 95), (100, 96), (101, 99), (102, 31)],
  [(5, 35), (8, 27), (10, 26), (11, 38), (17, 33), (19, 34), (24, 28), (32, 36), (33, 37), (39, 24), (40, 32), (48, 25), (50, 39), (77, 101), (79, 100), (80, 23), (83, 94), (88, 29), (89, 30), (102, 31)],
  [],
  [(11, 102)],
  [(33, 103)],
  [],
  [],
  [(62, 105), (111, 104)],
  [(5, 35), (8, 27), (10, 26), (11, 38), (17, 33), (19, 34), (24, 28), (32, 36), (33, 37), (39, 24), (40, 32), (48, 25), (50, 39), (52, 14), (53, 15), (54, 16), (55, 17), (59, 107), (77, 20), (80, 23), (81, 13), (88, 29), (89, 30), (96, 108), (97, 9), (102, 31), (103, 106)],
  [(9, 110), (37, 109)],
  [(5, 79), (11, 78), (17, 80)],
  [(5, 35), (8, 27), (10, 26), (11, 38), (17, 33), (19, 34), (24, 28), (32, 36), (33, 37), (39, 24), (40, 32), (48, 25), (50, 39), (77, 20), (80, 23), (81, 111), (88, 29), (89, 30), (102, 31)],
  [(5, 35), (8, 27), (10, 26), (11, 38), (17, 33), (19, 34), (24, 28), (32, 36), (33, 37), (39, 24), (40, 32), (48, 25), (50, 39), (77, 20), (80, 23), (81, 112), (88, 29), (89, 30), (102, 31)],
  [(5, 35), (8, 27), (10, 26), (11, 38), (17, 33), (19, 34), (24, 28), (32, 36), (33, 37), (39, 24), (40, 32), (48, 25), (50, 39), (77, 113), (80, 23), (88, 29), (89, 30), (102, 31)],
  [(9, 47)],
  [(5, 35), (8, 27), (10, 26), (11, 38), (17, 33), (19, 34), (24, 28), (32, 36), (33, 37), (39, 24), (40, 32), (48, 25), (50, 39), (77, 114), (80, 23), (88, 29), (89, 30), (102, 31)],
  [(5, 35), (8, 27), (10, 26), (11, 38), (17, 33), (19, 34), (24, 28), (32, 36), (33, 37), (39, 24), (40, 32), (48, 25), (50, 39), (77, 20), (80, 23), (81, 115), (88, 29), (89, 30), (102, 31)],
  [(13, 116), (34, 117)],
  [],
  [(5, 35), (8, 27), (10, 26), (11, 38), (17, 33), (19, 34), (24, 28), (32, 36), (33, 37), (39, 24), (40, 32), (48, 25), (50, 39), (77, 118), (80, 23), (88, 29), (89, 30), (102, 31)],
  [(5, 35), (8, 27), (10, 26), (11, 38), (17, 33), (19, 34), (24, 28), (32, 36), (33, 37), (39, 24), (40, 32), (48, 25), (50, 39), (77, 119), (80, 23), (88, 29), (89, 30), (102, 31)],
  [(5, 35), (8, 27), (10, 26), (11, 38), (17, 33), (19, 34), (24, 28), (32, 36), (33, 37), (39, 24), (40, 32), (48, 25), (50, 39), (77, 120), (80, 23), (88, 29), (89, 30), (102, 31)],
  [(5, 35), (8, 27), (10, 26), (11, 38), (17, 33), (19, 34), (24, 28), (32, 36), (33, 37), (39, 24), (40, 32), (48, 25), (50, 39), (77, 121), (80, 23), (88, 29), (89, 30), (102, 31)],
  [(5, 35), (8, 27), (10, 26), (11, 38), (17, 33), (19, 34), (24, 28), (32, 36), (33, 37), (39, 24), (40, 32), (48, 25), (50, 39), (77, 122), (80, 23), (88, 29), (89, 30), (102, 31)],
  [(5, 35), (8, 27), (10, 26), (11, 38), (17, 33), (19, 34), (24, 28), (32, 36), (33, 37), (39, 24), (40, 32), (48, 25), (50, 39), (77, 123), (80, 23), (88, 29), (89, 30), (102, 31)],
  [(5, 35), (8, 27), (10, 26), (11, 38), (17, 33), (19, 34), (24, 28), (32, 36), (33, 37), (39, 24), (40, 32), (48, 25), (50, 39), (77, 124), (80, 23), (88, 29), (89, 30), (102, 31)],
  [(5, 35), (8, 27), (10, 26), (11, 38), (17, 33), (19, 34), (24, 28), (32, 36), (33, 37), (39, 24), (40, 32), (48, 25), (50, 39), (77, 125), (80, 23), (88, 29), (89, 30), (102, 31)],
  [(5, 35), (8, 27), (10, 26), (11, 38), (17, 33), (19, 34), (24, 28), (32, 36), (33, 37), (39, 24), (40, 32), (48, 25), (50, 39), (77, 126), (80, 23), (88, 29), (89, 30), (102, 31)],
  [(5, 35), (8, 27), (10, 26), (11, 38), (17, 33), (19, 34), (24, 28), (32, 36), (33, 37), (39, 24), (40, 32), (48, 25), (50, 39), (77, 127), (80, 23), (88, 29), (89, 30), (102, 31)],
  [(5, 35), (8, 27), (10, 26), (11, 38), (17, 33), (19, 34), (24, 28), (32, 36), (33, 37), (39, 24), (40, 32), (48, 25), (50, 39), (77, 128), (80, 23), (88, 29), (89, 30), (102, 31)],
  [(5, 35), (8, 27), (10, 26), (11, 38), (17, 33), (19, 34), (24, 28), (32, 36), (33, 37), (39, 24), (40, 32), (48, 25), (50, 39), (77, 129), (80, 23), (88, 29), (89, 30), (102, 31)],
  [(5, 35), (8, 27), (10, 26), (11, 38), (17, 33), (19, 34), (24, 28), (32, 36), (33, 37), (39, 24), (40, 32), (48, 25), (50, 39), (77, 130), (80, 23), (88, 29), (89, 30), (102, 31)],
  [(37, 131)],
  [(5, 35), (8, 27), (10, 26), (11, 38), (17, 33), (19, 34), (24, 28), (32, 36), (33, 37), (39, 24), (40, 32), (48, 25), (50, 39), (77, 132), (80, 23), (88, 29), (89, 30), (102, 31)],
  [(5, 35), (8, 27), (10, 26), (11, 38), (17, 33), (19, 34), (24, 28), (32, 36), (33, 37), (39, 24), (40, 32), (48, 25), (50, 39), (77, 133), (80, 23), (88, 29), (89, 30), (102, 31)],
  [(5, 35), (8, 27), (10, 26), (11, 38), (17, 33), (19, 34), (24, 28), (32, 36), (33, 37), (39, 24), (40, 32), (48, 25), (50, 39), (77, 134), (80, 23), (88, 29), (89, 30), (102, 31)],
  [(5, 35), (8, 27), (10, 26), (11, 38), (17, 33), (19, 34), (24, 28), (32, 36), (33, 37), (39, 24), (40, 32), (48, 25), (50, 39), (77, 135), (80, 23), (88, 29), (89, 30), (102, 31)],
  [(5, 35), (8, 27), (10, 26), (11, 38), (17, 33), (19, 34), (24, 28), (32, 36), (33, 37), (39, 24), (40, 32), (48, 25), (50, 39), (77, 136), (80, 23), (88, 29), (89, 30), (102, 31)],
  [(5, 35), (8, 27), (10, 26), (11, 38), (17, 33), (19, 34), (24, 28), (32, 36), (33, 37), (39, 24), (40, 32), (48, 25), (50, 39), (77, 137), (80, 23), (88, 29), (89, 30), (102, 31)],
  [(5, 35), (8, 27), (10, 26), (11, 38), (17, 33), (19, 34), (24, 28), (32, 36), (33, 37), (39, 24), (40, 32), (48, 25), (50, 39), (77, 138), (80, 23), (88, 29), (89, 30), (102, 31)],
  [(5, 35), (8, 27), (10, 26), (11, 38), (17, 33), (19, 34), (24, 28), (32, 36), (33, 37), (39, 24), (40, 32), (48, 25), (50, 39), (77, 139), (80, 23), (88, 29), (89, 30), (102, 31)],
  [(5, 35), (8, 27), (10, 26), (11, 38), (17, 33), (19, 34), (24, 28), (32, 36), (33, 37), (39, 24), (40, 32), (48, 25), (50, 39), (77, 140), (80, 23), (88, 29), (89, 30), (102, 31)],
  [(5, 141)],
  [(9, 47), (13, 142)],
  [(32, 143)],
  [(9, 148), (66, 147), (67, 146), (69, 145), (70, 144)],
  [(5, 35), (8, 27), (10, 26), (11, 38), (17, 33), (19, 34), (24, 28), (32, 36), (33, 37), (39, 24), (40, 32), (48, 25), (50, 39), (77, 20), (80, 23), (81, 149), (82, 150), (88, 29), (89, 30), (102, 31)],
  [(13, 151)],
  [(9, 153), (65, 152)],
  [],
  [(15, 154)],
  [(32, 36), (88, 155)],
  [(32, 36), (88, 156)],
  [],
  [],
  [],
  [],
  [(9, 148), (66, 147), (67, 157)],
  [(18, 158)],
  [(4, 54), (7, 53), (8, 57), (10, 58), (12, 55), (14, 59), (16, 60), (21, 69), (22, 70), (23, 71), (26, 68), (29, 61), (30, 162), (31, 64), (34, 75), (37, 65), (38, 74), (41, 62), (42, 63), (44, 56), (45, 72), (46, 73), (48, 66), (49, 67), (85, 161), (86, 160), (87, 159)],
  [(9, 148), (66, 163), (67, 164)],
  [(30, 162), (85, 161), (86, 160), (87, 165)],
  [(20, 166)],
  [(9, 169), (65, 167), (66, 168)],
  [(4, 54), (7, 53), (8, 57), (10, 58), (12, 55), (13, 170), (14, 59), (16, 60), (21, 69), (22, 70), (23, 71), (26, 68), (29, 61), (31, 64), (34, 75), (37, 65), (38, 74), (41, 62), (42, 63), (44, 56), (45, 72), (46, 73), (48, 66), (49, 67)],
  [(9, 148), (66, 171)],
  [(6, 172)],
  [(4, 54), (7, 53), (8, 57), (10, 58), (12, 55), (14, 59), (16, 60), (21, 69), (22, 70), (23, 71), (26, 68), (29, 61), (31, 64), (34, 75), (37, 65), (38, 74), (41, 62), (42, 63), (44, 56), (45, 72), (46, 73), (48, 66), (49, 67)],
  [(33, 173)],
  [],
  [(59, 174)],
  [(5, 35), (8, 27), (10, 26), (11, 38), (17, 33), (19, 34), (24, 28), (32, 36), (33, 37), (39, 24), (40, 32), (48, 25), (50, 39), (52, 14), (53, 15), (54, 16), (55, 17), (77, 20), (80, 23), (81, 13), (88, 29), (89, 30), (97, 175), (102, 31)],
  [],
  [(104, 176)],
  [(110, 177)],
  [(5, 35), (8, 27), (10, 26), (11, 38), (17, 33), (19, 34), (24, 28), (32, 36), (33, 37), (39, 24), (40, 32), (48, 25), (50, 39), (77, 20), (80, 23), (81, 178), (88, 29), (89, 30), (102, 31)],
  [(5, 35), (11, 38), (17, 33), (19, 34), (32, 36), (33, 37), (40, 32), (50, 39), (80, 179), (88, 29), (89, 30), (102, 31)],
  [(9, 47)],
  [(9, 47)],
  [(4, 54), (7, 53), (8, 57), (10, 58), (12, 55), (14, 59), (16, 60), (21, 69), (22, 70), (23, 71), (26, 68), (29, 61), (31, 64), (37, 65), (38, 74), (41, 62), (42, 63), (44, 56), (45, 72), (46, 73), (48, 66), (49, 67)],
  [(4, 54), (7, 53), (8, 57), (10, 58), (12, 55), (14, 59), (16, 60), (21, 69), (22, 70), (23, 71), (26, 68), (29, 61), (31, 64), (34, 75), (37, 65), (38, 74), (41, 62), (42, 63), (44, 56), (45, 72), (46, 73), (48, 66), (49, 67)],
  [(9, 47), (13, 180)],
  [(5, 35), (8, 27), (10, 26), (11, 38), (17, 33), (19, 34), (24, 28), (32, 36), (33, 37), (39, 24), (40, 32), (48, 25), (50, 39), (52, 14), (53, 15), (54, 16), (55, 17), (59, 107), (77, 20), (80, 23), (81, 13), (88, 29), (89, 30), (96, 108), (97, 9), (102, 31), (103, 181)],
  [],
  [],
  [],
  [],
  [],
  [(4, 54), (7, 53), (12, 55), (44, 56)],
  [(4, 54), (7, 53), (12, 55), (44, 56)],
  [(4, 54), (7, 53), (8, 57), (10, 58), (12, 55), (21, 69), (22, 70), (23, 71), (44, 56), (45, 72), (46, 73)],
  [(4, 54), (7, 53), (8, 57), (10, 58), (12, 55), (21, 69), (22, 70), (23, 71), (44, 56), (45, 72), (46, 73)],
  [(4, 54), (7, 53), (8, 57), (10, 58), (12, 55), (21, 69), (22, 70), (23, 71), (44, 56), (45, 72), (46, 73)],
  [(4, 54), (7, 53), (8, 57), (10, 58), (12, 55), (21, 69), (22, 70), (23, 71), (44, 56), (45, 72), (46, 73)],
  [(4, 54), (7, 53), (8, 57), (10, 58), (12, 55), (21, 69), (22, 70), (23, 71), (44, 56), (45, 72), (46, 73)],
  [(4, 54), (7, 53), (8, 57), (10, 58), (12, 55), (21, 69), (22, 70), (23, 71), (44, 56), (45, 72), (46, 73)],
  [(4, 54), (7, 53), (8, 57), (10, 58), (12, 55), (21, 69), (22, 70), (23, 71), (44, 56), (45, 72), (46, 73)],
  [(5, 35), (8, 27), (10, 26), (11, 38), (17, 33), (19, 34), (24, 28), (32, 36), (33, 37), (39, 24), (40, 32), (48, 25), (50, 39), (77, 182), (80, 23), (88, 29), (89, 30), (102, 31)],
  [(4, 54), (7, 53), (8, 57), (10, 58), (12, 55), (14, 59), (16, 60), (21, 69), (22, 70), (23, 71), (26, 68), (29, 61), (31, 64), (37, 65), (41, 62), (42, 63), (44, 56), (45, 72), (46, 73), (48, 66)],
  [(4, 54), (7, 53), (8, 57), (10, 58), (12, 55), (14, 59), (16, 60), (21, 69), (22, 70), (23, 71), (29, 61), (31, 64), (37, 65), (41, 62), (42, 63), (44, 56), (45, 72), (46, 73), (48, 66)],
  [(4, 54), (7, 53), (8, 57), (10, 58), (12, 55), (22, 70), (23, 71), (44, 56), (45, 72), (46, 73)],
  [(4, 54), (7, 53), (8, 57), (10, 58), (12, 55), (44, 56), (45, 72), (46, 73)],
  [(4, 54), (7, 53), (8, 57), (10, 58), (12, 55), (22, 70), (44, 56), (45, 72), (46, 73)],
  [(4, 54), (7, 53), (8, 57), (10, 58), (12, 55), (44, 56)],
  [(4, 54), (7, 53), (8, 57), (10, 58), (12, 55), (44, 56)],
  [(4, 54), (7, 53), (8, 57), (10, 58), (12, 55), (14, 59), (16, 60), (21, 69), (22, 70), (23, 71), (26, 68), (29, 61), (31, 64), (37, 65), (41, 62), (42, 63), (44, 56), (45, 72), (46, 73), (48, 66), (49, 67)],
  [(4, 54), (7, 53), (8, 57), (10, 58), (12, 55), (14, 59), (16, 60), (21, 69), (22, 70), (23, 71), (26, 68), (29, 61), (31, 64), (34, 75), (35, 183), (37, 65), (38, 74), (41, 62), (42, 63), (44, 56), (45, 72), (46, 73), (48, 66), (49, 67)],
  [(7, 189), (32, 36), (43, 190), (71, 187), (74, 186), (75, 185), (76, 184), (88, 188)],
  [(5, 35), (8, 27), (10, 26), (11, 38), (17, 33), (19, 34), (24, 28), (32, 36), (33, 37), (39, 24), (40, 32), (48, 25), (50, 39), (52, 14), (53, 15), (54, 16), (55, 17), (59, 107), (77, 20), (80, 23), (81, 13), (88, 29), (89, 30), (96, 108), (97, 9), (102, 31), (103, 191)],
  [],
  [(6, 192)],
  [(9, 148), (66, 194), (67, 193)],
  [(5, 35), (7, 198), (8, 27), (10, 26), (11, 38), (17, 33), (19, 34), (24, 28), (32, 36), (33, 37), (39, 24), (40, 32), (43, 199), (48, 25), (50, 39), (68, 195), (77, 196), (80, 23), (88, 197), (89, 30), (102, 31)],
  [(9, 200)],
  [],
  [(9, 47), (18, 201)],
  [(13, 202)],
  [(5, 35), (8, 27), (10, 26), (11, 38), (17, 33), (19, 34), (24, 28), (32, 36), (33, 37), (39, 24), (40, 32), (48, 25), (50, 39), (77, 20), (80, 23), (81, 203), (88, 29), (89, 30), (102, 31)],
  [],
  [(7, 85), (32, 36), (43, 86), (71, 204), (88, 84)],
  [(5, 35), (8, 27), (10, 26), (11, 38), (17, 33), (19, 34), (24, 28), (32, 36), (33, 37), (39, 24), (40, 32), (48, 25), (50, 39), (77, 205), (80, 23), (88, 29), (89, 30), (102, 31)],
  [],
  [],
  [(50, 39), (102, 206)],
  [],
  [(18, 207), (30, 162), (85, 161), (86, 208)],
  [(34, 209)],
  [],
  [(5, 35), (11, 38), (17, 33), (19, 34), (32, 36), (33, 37), (40, 32), (50, 39), (80, 44), (84, 210), (88, 29), (89, 30), (102, 31)],
  [(5, 35), (8, 27), (9, 200), (10, 26), (11, 38), (17, 33), (19, 34), (24, 28), (32, 36), (33, 37), (39, 24), (40, 32), (48, 25), (50, 39), (77, 211), (80, 23), (88, 29), (89, 30), (102, 31)],
  [],
  [(20, 212), (30, 162), (85, 161), (86, 208)],
  [],
  [(20, 213)],
  [(5, 35), (8, 27), (9, 200), (10, 26), (11, 38), (17, 33), (19, 34), (24, 28), (32, 36), (33, 37), (39, 24), (40, 32), (48, 25), (50, 39), (77, 211), (80, 23), (88, 29), (89, 30), (102, 31)],
  [],
  [(5, 35), (8, 27), (10, 26), (11, 38), (17, 33), (19, 34), (24, 28), (32, 36), (33, 37), (39, 24), (40, 32), (48, 25), (50, 39), (77, 214), (80, 23), (88, 29), (89, 30), (102, 31)],
  [(5, 35), (8, 27), (9, 200), (10, 26), (11, 38), (17, 33), (19, 34), (24, 28), (32, 36), (33, 37), (39, 24), (40, 32), (48, 25), (50, 39), (77, 216), (80, 23), (88, 29), (89, 30), (99, 215), (102, 31)],
  [],
  [],
  [],
  [],
  [(27, 218), (56, 217), (59, 219)],
  [(59, 220)],
  [(9, 47), (13, 221)],
  [(5, 79), (11, 78), (17, 80)],
  [(5, 35), (8, 27), (10, 26), (11, 38), (17, 33), (19, 34), (24, 28), (32, 36), (33, 37), (39, 24), (40, 32), (48, 25), (50, 39), (52, 14), (53, 15), (54, 16), (55, 17), (59, 107), (77, 20), (80, 23), (81, 13), (88, 29), (89, 30), (96, 108), (97, 9), (102, 31), (103, 222)],
  [],
  [(4, 54), (7, 53), (8, 57), (10, 58), (12, 55), (21, 69), (22, 70), (23, 71), (44, 56), (45, 72), (46, 73)],
  [(5, 35), (8, 27), (10, 26), (11, 38), (17, 33), (19, 34), (24, 28), (32, 36), (33, 37), (39, 24), (40, 32), (48, 25), (50, 39), (77, 223), (80, 23), (88, 29), (89, 30), (102, 31)],
  [(6, 224)],
  [(9, 226), (65, 225)],
  [],
  [],
  [(13, 227), (15, 154)],
  [(32, 36), (88, 228)],
  [(32, 36), (88, 229)],
  [],
  [],
  [],
  [(5, 35), (7, 198), (8, 27), (9, 200), (10, 26), (11, 38), (17, 33), (19, 34), (24, 28), (32, 36), (33, 37), (39, 24), (40, 32), (43, 199), (48, 25), (50, 39), (68, 230), (77, 196), (80, 23), (88, 197), (89, 30), (102, 31)],
  [],
  [(4, 54), (7, 53), (8, 57), (10, 58), (12, 55), (14, 59), (16, 60), (21, 69), (22, 70), (23, 71), (26, 68), (29, 61), (31, 64), (34, 75), (37, 65), (38, 74), (41, 62), (42, 63), (44, 56), (45, 72), (46, 73), (48, 66), (49, 67)],
  [(15, 231)],
  [(5, 35), (8, 27), (10, 26), (11, 38), (17, 33), (19, 34), (24, 28), (32, 36), (33, 37), (39, 24), (40, 32), (48, 25), (50, 39), (77, 232), (80, 23), (88, 29), (89, 30), (102, 31)],
  [(5, 35), (8, 27), (10, 26), (11, 38), (17, 33), (19, 34), (24, 28), (32, 36), (33, 37), (39, 24), (40, 32), (48, 25), (50, 39), (77, 233), (80, 23), (88, 29), (89, 30), (102, 31)],
  [],
  [],
  [(5, 35), (8, 27), (10, 26), (11, 38), (17, 33), (19, 34), (24, 28), (32, 36), (33, 37), (39, 24), (40, 32), (48, 25), (50, 39), (77, 235), (78, 234), (80, 23), (88, 29), (89, 30), (102, 31)],
  [],
  [],
  [(4, 54), (7, 53), (8, 57), (10, 58), (12, 55), (14, 59), (16, 60), (21, 69), (22, 70), (23, 71), (26, 68), (29, 61), (31, 64), (34, 75), (37, 65), (38, 74), (41, 62), (42, 63), (44, 56), (45, 72), (46, 73), (48, 66), (49, 67)],
  [(9, 148), (66, 236)],
  [],
  [(34, 209)],
  [(5, 35), (8, 27), (10, 26), (11, 38), (17, 33), (19, 34), (24, 28), (32, 36), (33, 37), (39, 24), (40, 32), (48, 25), (50, 39), (77, 237), (80, 23), (88, 29), (89, 30), (102, 31)],
  [(9, 110), (37, 238)],
  [(4, 54), (7, 53), (8, 57), (10, 58), (12, 55), (14, 59), (16, 60), (21, 69), (22, 70), (23, 71), (26, 68), (29, 61), (31, 64), (34, 75), (37, 65), (38, 74), (41, 62), (42, 63), (44, 56), (45, 72), (46, 73), (48, 66), (49, 67)],
  [],
  [],
  [(4, 54), (7, 53), (8, 57), (10, 58), (12, 55), (14, 59), (16, 60), (21, 69), (22, 70), (23, 71), (26, 68), (29, 61), (31, 64), (34, 75), (37, 65), (38, 74), (41, 62), (42, 63), (44, 56), (45, 72), (46, 73), (48, 66), (49, 67)],
  [],
  [(4, 54), (7, 53), (8, 57), (10, 58), (12, 55), (13, 170), (14, 59), (16, 60), (21, 69), (22, 70), (23, 71), (26, 68), (29, 61), (31, 64), (34, 75), (37, 65), (38, 74), (41, 62), (42, 63), (44, 56), (45, 72), (46, 73), (48, 66), (49, 67)],
  [(90, 239)],
  [(59, 240)],
  [],
  [],
  [(5, 35), (8, 27), (10, 26), (11, 38), (17, 33), (19, 34), (24, 28), (32, 36), (33, 37), (39, 24), (40, 32), (48, 25), (50, 39), (52, 14), (53, 15), (54, 16), (55, 17), (59, 107), (77, 20), (80, 23), (81, 13), (88, 29), (89, 30), (96, 108), (97, 9), (102, 31), (103, 241)],
  [],
  [(4, 54), (7, 53), (8, 57), (10, 58), (12, 55), (14, 59), (16, 60), (21, 69), (22, 70), (23, 71), (26, 68), (29, 61), (31, 64), (37, 65), (38, 74), (41, 62), (42, 63), (44, 56), (45, 72), (46, 73), (48, 66), (49, 67)],
  [],
  [],
  [(7, 189), (32, 36), (43, 190), (71, 187), (74, 242), (88, 188)],
  [(5, 35), (8, 27), (10, 26), (11, 38), (17, 33), (19, 34), (24, 28), (32, 36), (33, 37), (39, 24), (40, 32), (48, 25), (50, 39), (77, 243), (80, 23), (88, 29), (89, 30), (102, 31)],
  [(13, 244)],
  [(13, 245)],
  [],
  [(5, 35), (8, 27), (10, 26), (11, 38), (17, 33), (19, 34), (24, 28), (32, 36), (33, 37), (39, 24), (40, 32), (48, 25), (50, 39), (77, 246), (80, 23), (88, 29), (89, 30), (102, 31)],
  [(4, 54), (7, 53), (8, 57), (10, 58), (12, 55), (14, 59), (16, 60), (21, 69), (22, 70), (23, 71), (26, 68), (29, 61), (31, 64), (34, 75), (37, 65), (38, 74), (41, 62), (42, 63), (44, 56), (45, 72), (46, 73), (48, 66), (49, 67)],
  [(4, 54), (7, 53), (8, 57), (10, 58), (12, 55), (14, 59), (16, 60), (21, 69), (22, 70), (23, 71), (26, 68), (29, 61), (31, 64), (34, 75), (37, 65), (38, 74), (41, 62), (42, 63), (44, 56), (45, 72), (46, 73), (48, 66), (49, 67)],
  [(13, 248), (18, 247)],
  [(4, 54), (7, 53), (8, 57), (10, 58), (12, 55), (14, 59), (16, 60), (21, 69), (22, 70), (23, 71), (26, 68), (29, 61), (31, 64), (34, 75), (37, 65), (38, 74), (41, 62), (42, 63), (44, 56), (45, 72), (46, 73), (48, 66), (49, 67)],
  [(9, 200), (32, 36), (50, 39), (88, 252), (102, 251), (105, 250), (106, 249)],
  [(4, 54), (7, 53), (8, 57), (10, 58), (12, 55), (14, 59), (16, 60), (21, 69), (22, 70), (23, 71), (26, 68), (29, 61), (31, 64), (37, 65), (38, 74), (41, 62), (42, 63), (44, 56), (45, 72), (46, 73), (48, 66), (49, 67)],
  [(5, 35), (8, 27), (10, 26), (11, 38), (17, 33), (19, 34), (24, 28), (32, 36), (33, 37), (39, 24), (40, 32), (48, 25), (50, 39), (77, 253), (80, 23), (88, 29), (89, 30), (102, 31)],
  [(5, 35), (8, 27), (10, 26), (11, 38), (17, 33), (19, 34), (24, 28), (27, 6), (30, 11), (32, 36), (33, 37), (34, 22), (39, 24), (40, 32), (48, 25), (50, 39), (51, 21), (52, 14), (53, 15), (54, 16), (55, 17), (57, 254), (59, 5), (77, 20), (80, 23), (81, 13), (88, 29), (89, 30), (91, 4), (92, 8), (93, 12), (94, 19), (96, 7), (97, 9), (102, 31), (107, 18), (108, 10)],
  [],
  [],
  [],
  [(4, 54), (7, 53), (8, 57), (10, 58), (12, 55), (14, 59), (15, 255), (16, 60), (21, 69), (22, 70), (23, 71), (26, 68), (29, 61), (31, 64), (34, 75), (37, 65), (38, 74), (41, 62), (42, 63), (44, 56), (45, 72), (46, 73), (48, 66), (49, 67)],
  [(5, 35), (8, 27), (10, 26), (11, 38), (17, 33), (19, 34), (24, 28), (32, 36), (33, 37), (39, 24), (40, 32), (48, 25), (50, 39), (77, 256), (80, 23), (88, 29), (89, 30), (102, 31)],
  [(5, 35), (8, 27), (10, 26), (11, 38), (17, 33), (19, 34), (24, 28), (32, 36), (33, 37), (39, 24), (40, 32), (48, 25), (50, 39), (77, 257), (80, 23), (88, 29), (89, 30), (102, 31)],
  [(4, 54), (7, 53), (8, 57), (10, 58), (12, 55), (14, 59), (16, 60), (21, 69), (22, 70), (23, 71), (26, 68), (29, 61), (31, 64), (34, 75), (37, 65), (38, 74), (41, 62), (42, 63), (44, 56), (45, 72), (46, 73), (48, 66), (49, 67)],
  [],
  [(5, 35), (8, 27), (10, 26), (11, 38), (17, 33), (19, 34), (24, 28), (32, 36), (33, 37), (39, 24), (40, 32), (48, 25), (50, 39), (77, 235), (78, 258), (80, 23), (88, 29), (89, 30), (102, 31)],
  [(9, 260), (66, 147), (67, 259)],
  [],
  [],
  [(15, 261)],
  [(4, 54), (7, 53), (8, 57), (10, 58), (12, 55), (14, 59), (16, 60), (21, 69), (22, 70), (23, 71), (26, 68), (29, 61), (31, 64), (37, 65), (38, 74), (41, 62), (42, 63), (44, 56), (45, 72), (46, 73), (48, 66), (49, 67)],
  [],
  [(5, 35), (8, 27), (10, 26), (11, 38), (17, 33), (19, 34), (24, 28), (32, 36), (33, 37), (39, 24), (40, 32), (48, 25), (50, 39), (77, 262), (80, 23), (88, 29), (89, 30), (102, 31)],
  [(4, 54), (7, 53), (8, 57), (10, 58), (12, 55), (14, 59), (16, 60), (21, 69), (22, 70), (23, 71), (26, 68), (29, 61), (31, 64), (34, 75), (37, 65), (38, 74), (41, 62), (42, 63), (44, 56), (45, 72), (46, 73), (48, 66), (49, 67)],
  [(4, 54), (7, 53), (8, 57), (10, 58), (12, 55), (14, 59), (16, 60), (21, 69), (22, 70), (23, 71), (26, 68), (29, 61), (31, 64), (34, 75), (37, 65), (38, 74), (41, 62), (42, 63), (44, 56), (45, 72), (46, 73), (48, 66), (49, 67)],
  [(18, 263)],
  [(6, 264)],
  [(32, 36), (50, 39), (88, 252), (102, 251), (105, 265)],
  [(50, 39), (102, 266)],
  [(4, 54), (7, 53), (8, 57), (10, 58), (12, 55), (14, 59), (16, 60), (21, 69), (22, 70), (23, 71), (26, 68), (29, 61), (31, 64), (34, 75), (37, 65), (38, 74), (41, 62), (42, 63), (44, 56), (45, 72), (46, 73), (48, 66), (49, 67)],
  [],
  [],
  [],
  []]

/-- reductions of each state with the tokens they are done on -/
def redTab : List (List (Nat × Nat)) := [
  [(9, 18446744073709551615)],
  [],
  [],
  [(1, 18446744073709551615)],
  [(10, 18446744073709551615)],
  [(11, 18446744073709551615)],
  [],
  [(13, 18446744073709551615)],
  [(14, 18446744073709551615)],
  [(28, 18446744073709551615)],
  [],
  [],
  [(20, 18446744073709551615)],
  [(30, 18446744073675963903)],
  [(32, 18445335036656218847)],
  [(35, 18446744073709551615)],
  [(36, 18446744073709551615)],
  [(37, 18446744073709551615)],
  [(16, 18446603336221196287)],
  [(23, 18446743970630336511)],
  [(85, 18445769474144381551)],
  [],
  [],
  [(89, 18446744073709418463)],
  [(67, 18446735273321561983)],
  [],
  [],
  [],
  [],
  [(40, 18446744073709551615)],
  [(41, 18446744073709551615)],
  [(42, 18446744073709551615)],
  [],
  [(122, 18445335036656218847)],
  [(133, 18445335036656218847)],
  [(122, 18445335036656218847)],
  [(139, 18446744073709551615)],
  [(143, 18446744073709549567)],
  [],
  [(138, 18446744073709551615)],
  [(12, 18446744073709551615)],
  [(38, 13835058055282163711)],
  [],
  [],
  [(136, 18446744073709418463)],
  [],
  [],
  [],
  [(31, 18446744073709551103)],
  [],
  [],
  [],
  [(26, 18446744073709551615)],
  [],
  [],
  [],
  [],
  [],
  [],
  [],
  [],
  [],
  [],
  [],
  [],
  [],
  [],
  [],
  [],
  [],
  [],
  [],
  [],
  [],
  [],
  [],
  [],
  [],
  [],
  [(55, 64), (128, 18446744073709551039)],
  [(87, 18445335036656218847)],
  [],
  [(124, 18446744073709551103)],
  [(71, 18446744073709551615)],
  [(75, 18446744073709518847)],
  [(78, 18446744069414584319)],
  [],
  [(91, 18446744073709551615)],
  [(92, 18446744073709551615)],
  [(93, 18446744073709551615)],
  [(94, 18446744073709551615)],
  [(128, 18446744073709551103)],
  [],
  [(118, 18445769473070639727)],
  [(128, 18446744073709551103)],
  [(131, 18446744072635809791)],
  [],
  [(124, 18446744073709551103)],
  [(118, 18445769474144373359)],
  [(134, 18446744073709551103)],
  [],
  [(118, 18445769474144381551)],
  [(141, 18446744065119617023)],
  [(142, 18446744073709551615)],
  [],
  [(39, 18377781042245661407)],
  [(18, 18446744073709551615)],
  [(6, 18446744073709551615)],
  [(4, 18446744073709551615)],
  [],
  [],
  [(33, 18446744073709551103)],
  [(34, 18446744073709551103)],
  [(86, 18445769491324250735)],
  [(17, 18445769474144381551)],
  [],
  [],
  [(25, 18446744073709551615)],
  [(95, 18446744073709551615)],
  [(96, 18446744073709551615)],
  [(97, 18446744073709551615)],
  [(98, 18446744073709551615)],
  [(99, 18446726481523502959)],
  [(100, 18446726481523502959)],
  [(101, 18446620928392555119)],
  [(102, 18446620928392555119)],
  [(103, 18446620928392555119)],
  [(104, 18446620928392555119)],
  [(105, 18446620928392555119)],
  [(106, 18446620928392555119)],
  [(107, 18446620928392555119)],
  [],
  [(109, 18446332716155578991)],
  [(110, 18446332716222687855)],
  [(111, 18446620928394652271)],
  [(112, 18446620928407235183)],
  [(113, 18446620928403040879)],
  [(114, 18446726481523501679)],
  [(115, 18446726481523501679)],
  [(116, 18445769766202157679)],
  [],
  [(69, 18446735273321561983)],
  [],
  [(43, 18446744073709551615)],
  [],
  [(128, 18446744073709551103)],
  [],
  [(129, 18446744073709551103)],
  [(126, 18446744073709551615)],
  [(88, 18446744073709288959)],
  [],
  [],
  [(68, 18446744073709551615)],
  [(125, 18446735273321561983)],
  [],
  [(77, 18446744073709551615)],
  [(79, 18446744073709551615)],
  [],
  [(49, 18446744073709551615)],
  [],
  [(147, 18446744056529682431)],
  [(145, 18446744073709551615)],
  [],
  [(129, 18445335036656218335)],
  [(123, 18446744073709551615)],
  [],
  [(52, 18446744073709551615)],
  [],
  [],
  [(125, 1048576), (126, 18446744073708503039)],
  [],
  [(135, 18445335036656218335)],
  [(54, 18446744073709551615)],
  [(140, 18446744073709551615)],
  [(27, 18446744073709551615)],
  [(29, 18446744073709551615)],
  [],
  [(3, 17870283321406128127)],
  [],
  [(137, 18446744073709418463)],
  [],
  [(24, 18446744073709551615)],
  [(108, 18446620928392555119)],
  [],
  [],
  [(124, 18446744073709551103)],
  [(73, 18446744073709551615)],
  [(80, 18446744073709551615)],
  [(75, 18446744073709510655)],
  [(78, 18446744069414584319)],
  [],
  [(21, 18446744073709551615)],
  [(45, 18446744073709551615)],
  [(56, 18446744073709551615)],
  [(129, 18445326240563195999)],
  [(57, 18446744073709551615)],
  [(59, 18445769474144381551)],
  [(40, 18446744073709518847)],
  [],
  [],
  [(127, 18446744073709551615)],
  [(46, 18446744073709551615)],
  [(120, 18445335036656218847)],
  [(90, 18446744073709551615)],
  [(72, 18446744073709551615)],
  [(76, 18445769474144381551)],
  [],
  [(50, 18446744073709551615)],
  [(148, 18446744056529682431)],
  [],
  [],
  [(119, 18445769474144381551)],
  [(51, 18446744073709551615)],
  [(53, 18446744073709551615)],
  [(130, 18445769474144381551)],
  [(132, 18446744073709551615)],
  [],
  [(9, 18446744073709551615)],
  [],
  [(8, 18446744073709551615)],
  [(5, 18446744073709551615)],
  [],
  [(22, 18446744073709551615)],
  [(117, 18445769491324250735)],
  [(15, 18446744073709551615)],
  [(70, 18446744073709551615)],
  [(125, 18446735273321561983)],
  [],
  [(77, 18446744073709543423)],
  [(79, 18446744073709543423)],
  [(58, 18446744073709551615)],
  [],
  [(61, 18445769474144381551)],
  [(62, 18445769474144381551)],
  [],
  [(121, 18445769474144381551)],
  [],
  [(146, 18445769491324250735)],
  [],
  [],
  [(7, 18446744073709551615)],
  [(19, 18446744073709551615)],
  [(74, 18446744073709551615)],
  [(81, 18445769474144348783)],
  [],
  [],
  [(60, 18445769474144381551)],
  [(47, 18446744073709551615)],
  [(120, 18445335036656218847)],
  [(128, 18446744073709551103)],
  [(63, 18446744073709551615)],
  [(65, 18446744073709551615)],
  [],
  [(144, 18445769491324250735)],
  [(2, 18446744073709551615)],
  [],
  [(83, 18445769474144381551)],
  [(84, 18445769474144381551)],
  [],
  [],
  [(126, 18445618169507741695)],
  [],
  [(82, 18445769474144381551)],
  [(48, 18446744073709551615)],
  [(44, 18446744073709551615)],
  [(64, 18446744073709551615)],
  [(66, 18446744073709551615)]]

/-- per production of parse.y: number, symbols, and the refined productions: classes, right-hand sides -/
def ruleTab : List (Nat × List Nat × List Nat × List (List Nat)) := [
  (1, [90, 28], [64], [[148, 28]]),
  (2, [59, 104, 56, 90, 57], [65], [[59, 68, 56, 148, 57]]),
  (3, [96, 110], [66], [[82, 67]]),
  (4, [], [67], [[]]),
  (5, [110, 59], [67], [[67, 59]]),
  (6, [], [68], [[]]),
  (7, [104, 27, 59], [68], [[68, 27, 59]]),
  (8, [104, 59], [68], [[68, 59]]),
  (9, [], [69], [[]]),
  (10, [90, 91], [69, 70], [[148, 71], [148, 72]]),
  (11, [90, 59], [69], [[69, 59]]),
  (12, [90, 27, 59], [69], [[148, 27, 59]]),
  (13, [96], [71], [[82]]),
  (14, [92], [71, 72], [[75], [76]]),
  (15, [51, 32, 5, 76, 6], [73], [[51, 32, 5, 94, 6]]),
  (16, [107], [74], [[73]]),
  (17, [107, 47, 77], [74], [[73, 47, 120]]),
  (18, [108, 13, 103], [75, 76], [[74, 13, 65], [74, 13, 66]]),
  (19, [30, 84, 37, 81, 13, 103], [75, 76], [[30, 110, 37, 99, 13, 65], [30, 110, 37, 99, 13, 66]]),
  (20, [93], [75, 76], [[79], [80]]),
  (21, [34, 81, 13, 103], [77, 78], [[34, 99, 13, 65], [34, 99, 13, 66]]),
  (22, [94, 95, 81, 13, 103], [77, 78], [[149, 81, 99, 13, 65], [149, 81, 99, 13, 66]]),
  (23, [94], [79, 80], [[77], [78]]),
  (24, [94, 35, 13, 103], [79, 80], [[149, 35, 13, 65], [149, 35, 13, 66]]),
  (25, [35, 34], [81], [[35, 34]]),
  (26, [36], [81], [[36]]),
  (27, [97, 98, 111, 59], [82], [[84, 83, 85, 59]]),
  (28, [], [83], [[]]),
  (29, [98, 62, 97], [83], [[83, 62, 84]]),
  (30, [81], [84], [[99]]),
  (31, [52, 81], [84], [[52, 99]]),
  (32, [52], [84], [[52]]),
  (33, [81, 15, 81], [84], [[99, 15, 99]]),
  (34, [81, 25, 81], [84], [[99, 25, 99]]),
  (35, [53], [84], [[53]]),
  (36, [54], [84], [[54]]),
  (37, [55], [84], [[55]]),
  (38, [], [85], [[]]),
  (39, [62], [85], [[62]]),
  (40, [88], [86], [[112]]),
  (41, [89], [86, 87], [[113], [114]]),
  (42, [102], [86], [[111]]),
  (43, [80, 11, 32], [86], [[86, 11, 32]]),
  (44, [40, 5, 67, 102, 66, 106, 67, 6], [86], [[40, 5, 106, 111, 105, 91, 106, 6]]),
  (45, [80, 5, 70, 6], [86], [[147, 5, 88, 6]]),
  (46, [80, 17, 81, 18], [86], [[147, 17, 99, 18]]),
  (47, [80, 17, 82, 13, 78, 18], [86], [[147, 17, 100, 13, 102, 18]]),
  (48, [80, 17, 82, 13, 78, 13, 78, 18], [86], [[147, 17, 100, 13, 102, 13, 102, 18]]),
  (49, [17, 79, 18], [86], [[17, 103, 18]]),
  (50, [17, 77, 87, 18], [86], [[17, 120, 119, 18]]),
  (51, [19, 99, 87, 20], [86], [[19, 107, 119, 20]]),
  (52, [19, 100, 20], [86], [[19, 109, 20]]),
  (53, [19, 83, 65, 20], [86], [[19, 101, 104, 20]]),
  (54, [5, 79, 6], [86], [[5, 103, 6]]),
  (55, [], [88], [[]]),
  (56, [69, 67], [88], [[89, 106]]),
  (57, [67, 68], [89], [[106, 90]]),
  (58, [69, 66, 68], [89], [[89, 105, 90]]),
  (59, [77], [90], [[120]]),
  (60, [88, 15, 77], [90], [[112, 15, 120]]),
  (61, [7, 77], [90], [[7, 120]]),
  (62, [43, 77], [90], [[43, 120]]),
  (63, [105], [91], [[92]]),
  (64, [106, 9, 105], [91], [[91, 9, 92]]),
  (65, [102], [92], [[111]]),
  (66, [88, 15, 102], [92], [[112, 15, 111]]),
  (67, [], [93], [[]]),
  (68, [72, 65], [93], [[95, 104]]),
  (69, [], [94], [[]]),
  (70, [75, 65], [94], [[96, 104]]),
  (71, [71], [95], [[97]]),
  (72, [72, 9, 71], [95], [[95, 9, 97]]),
  (73, [74], [96], [[98]]),
  (74, [75, 9, 74], [96], [[96, 9, 98]]),
  (75, [88], [97], [[112]]),
  (76, [88, 15, 77], [97], [[112, 15, 120]]),
  (77, [7, 88], [97], [[7, 112]]),
  (78, [7], [97], [[7]]),
  (79, [43, 88], [97], [[43, 112]]),
  (80, [71], [98], [[97]]),
  (81, [88, 13, 77], [98], [[112, 13, 120]]),
  (82, [88, 13, 77, 15, 77], [98], [[112, 13, 120, 15, 120]]),
  (83, [7, 88, 13, 77], [98], [[7, 112, 13, 120]]),
  (84, [43, 88, 13, 77], [98], [[43, 112, 13, 120]]),
  (85, [77], [99, 145], [[120], [120]]),
  (86, [81, 9, 77], [99], [[99, 9, 146]]),
  (87, [], [100], [[]]),
  (88, [81], [100], [[99]]),
  (89, [80], [132], [[147]]),
  (90, [39, 73, 13, 81], [144], [[39, 93, 13, 145]]),
  (91, [48, 77], [132, 144], [[48, 132], [48, 144]]),
  (92, [10, 77], [132, 144], [[10, 132], [10, 144]]),
  (93, [8, 77], [132, 144], [[8, 132], [8, 144]]),
  (94, [24, 77], [132, 144], [[24, 132], [24, 144]]),
  (95, [77, 7, 77], [131, 143], [[131, 7, 132], [131, 7, 144]]),
  (96, [77, 4, 77], [131, 143], [[131, 4, 132], [131, 4, 144]]),
  (97, [77, 12, 77], [131, 143], [[131, 12, 132], [131, 12, 144]]),
  (98, [77, 44, 77], [131, 143], [[131, 44, 132], [131, 44, 144]]),
  (99, [77, 8, 77], [130, 142], [[130, 8, 131], [130, 8, 143]]),
  (100, [77, 10, 77], [130, 142], [[130, 10, 131], [130, 10, 143]]),
  (101, [77, 14, 77], [125, 137], [[125, 14, 126], [125, 14, 138]]),
  (102, [77, 16, 77], [125, 137], [[125, 16, 126], [125, 16, 138]]),
  (103, [77, 29, 77], [125, 137], [[125, 29, 126], [125, 29, 138]]),
  (104, [77, 41, 77], [125, 137], [[125, 41, 126], [125, 41, 138]]),
  (105, [77, 42, 77], [125, 137], [[125, 42, 126], [125, 42, 138]]),
  (106, [77, 31, 77], [125, 137], [[125, 31, 126], [125, 31, 138]]),
  (107, [77, 37, 77], [125, 137], [[125, 37, 126], [125, 37, 138]]),
  (108, [77, 48, 37, 77], [125, 137], [[125, 48, 37, 126], [125, 48, 37, 138]]),
  (109, [77, 49, 77], [123, 135], [[123, 49, 124], [123, 49, 136]]),
  (110, [77, 26, 77], [124, 136], [[124, 26, 125], [124, 26, 137]]),
  (111, [77, 21, 77], [126, 138], [[126, 21, 127], [126, 21, 139]]),
  (112, [77, 22, 77], [128, 140], [[128, 22, 129], [128, 22, 141]]),
  (113, [77, 23, 77], [127, 139], [[127, 23, 128], [127, 23, 140]]),
  (114, [77, 45, 77], [129, 141], [[129, 45, 130], [129, 45, 142]]),
  (115, [77, 46, 77], [129, 141], [[129, 46, 130], [129, 46, 142]]),
  (116, [77, 38, 77], [122, 134], [[122, 38, 123], [122, 38, 135]]),
  (117, [77, 34, 77, 35, 77], [121, 133], [[121, 34, 120, 35, 122], [121, 34, 120, 35, 134]]),
  (118, [77], [101], [[120]]),
  (119, [83, 66, 77], [101], [[101, 105, 120]]),
  (120, [], [102], [[]]),
  (121, [77], [102], [[120]]),
  (122, [], [103], [[]]),
  (123, [83, 67], [103], [[101, 106]]),
  (124, [], [104], [[]]),
  (125, [9], [104], [[9]]),
  (126, [9], [105], [[9]]),
  (127, [66, 9], [105], [[105, 9]]),
  (128, [], [106], [[]]),
  (129, [66], [106], [[105]]),
  (130, [77, 13, 77], [107], [[120, 13, 120]]),
  (131, [99], [108], [[107]]),
  (132, [101, 66, 99], [108], [[108, 105, 107]]),
  (133, [], [109], [[]]),
  (134, [101], [109], [[108]]),
  (135, [101, 66], [109], [[108, 105]]),
  (136, [80], [110], [[147]]),
  (137, [84, 9, 80], [110], [[110, 9, 147]]),
  (138, [50], [111], [[50]]),
  (139, [32], [112], [[32]]),
  (140, [33, 11, 33], [113], [[33, 11, 33]]),
  (141, [33, 11], [113], [[33, 11]]),
  (142, [11, 33], [113], [[11, 33]]),
  (143, [33], [114], [[33]]),
  (144, [30, 84, 37, 77], [115, 116], [[30, 110, 37, 122], [30, 110, 37, 134]]),
  (145, [85], [117, 118], [[115], [116]]),
  (146, [86, 34, 77], [117, 118], [[117, 34, 122], [117, 34, 134]]),
  (147, [86], [119, 119], [[117], [118]]),
  (148, [87, 86], [119, 119], [[119, 117], [119, 118]])]

/-- the classes each class is included in, itself first -/
def supList : List (List Nat) := [[64],
  [65],
  [66],
  [67],
  [68],
  [69, 148],
  [70, 148],
  [71],
  [72],
  [73],
  [74],
  [75],
  [76],
  [77, 149],
  [78, 149],
  [79],
  [80],
  [81],
  [82],
  [83],
  [84],
  [85],
  [86, 147],
  [87, 147],
  [88],
  [89],
  [90],
  [91],
  [92],
  [93],
  [94],
  [95],
  [96],
  [97],
  [98],
  [99],
  [100],
  [101],
  [102],
  [103],
  [104],
  [105],
  [106],
  [107],
  [108],
  [109],
  [110],
  [111],
  [112],
  [113],
  [114],
  [115],
  [116],
  [117],
  [118],
  [119],
  [120],
  [121, 120],
  [122, 121, 146, 120],
  [123, 122, 121, 146, 120],
  [124, 123, 122, 121, 146, 120],
  [125, 124, 123, 122, 121, 146, 120],
  [126, 125, 124, 123, 122, 121, 146, 120],
  [127, 126, 125, 124, 123, 122, 121, 146, 120],
  [128, 127, 126, 125, 124, 123, 122, 121, 146, 120],
  [129, 128, 127, 126, 125, 124, 123, 122, 121, 146, 120],
  [130, 129, 128, 127, 126, 125, 124, 123, 122, 121, 146, 120],
  [131, 130, 129, 128, 127, 126, 125, 124, 123, 122, 121, 146, 120],
  [132, 131, 130, 129, 128, 127, 126, 125, 124, 123, 122, 121, 146, 120],
  [133, 120],
  [134, 133, 146, 120],
  [135, 134, 133, 146, 120],
  [136, 135, 134, 133, 146, 120],
  [137, 136, 135, 134, 133, 146, 120],
  [138, 137, 136, 135, 134, 133, 146, 120],
  [139, 138, 137, 136, 135, 134, 133, 146, 120],
  [140, 139, 138, 137, 136, 135, 134, 133, 146, 120],
  [141, 140, 139, 138, 137, 136, 135, 134, 133, 146, 120],
  [142, 141, 140, 139, 138, 137, 136, 135, 134, 133, 146, 120],
  [143, 142, 141, 140, 139, 138, 137, 136, 135, 134, 133, 146, 120],
  [144, 143, 142, 141, 140, 139, 138, 137, 136, 135, 134, 133, 146, 120],
  [145],
  [146],
  [147],
  [148],
  [149]]

def rowN : List (List Nat) → Nat → List Nat
  | [], _ => []
  | r :: _, 0 => r
  | _ :: l, n + 1 => rowN l n

/-- the same as bit masks -/
def supTab : List Nat := [18446744073709551616, 36893488147419103232, 73786976294838206464, 147573952589676412928, 295147905179352825856, 356811923176489970264572082658184142801338368, 356811923176489970264572672953994501506990080, 2361183241434822606848, 4722366482869645213696, 9444732965739290427392, 18889465931478580854784, 37778931862957161709568, 75557863725914323419136, 713623846352979940529294100452199396838211584, 713623846352979940529445216179651225485049856, 604462909807314587353088, 1208925819614629174706176, 2417851639229258349412352, 4835703278458516698824704, 9671406556917033397649408, 19342813113834066795298816, 38685626227668133590597632, 178405961588244985209656998636523159229038592, 178405961588244985287028251091859426410233856, 309485009821345068724781056, 618970019642690137449562112, 1237940039285380274899124224, 2475880078570760549798248448, 4951760157141521099596496896, 9903520314283042199192993792, 19807040628566084398385987584, 39614081257132168796771975168, 79228162514264337593543950336, 158456325028528675187087900672, 316912650057057350374175801344, 633825300114114700748351602688, 1267650600228229401496703205376, 2535301200456458802993406410752, 5070602400912917605986812821504, 10141204801825835211973625643008, 20282409603651670423947251286016, 40564819207303340847894502572032, 81129638414606681695789005144064, 162259276829213363391578010288128, 324518553658426726783156020576256, 649037107316853453566312041152512, 1298074214633706907132624082305024, 2596148429267413814265248164610048, 5192296858534827628530496329220096, 10384593717069655257060992658440192, 20769187434139310514121985316880384, 41538374868278621028243970633760768, 83076749736557242056487941267521536, 166153499473114484112975882535043072, 332306998946228968225951765070086144, 664613997892457936451903530140172288, 1329227995784915872903807060280344576, 3987683987354747618711421180841033728, 89202990098718463060553983417242867986333696, 89203000732542429339880966647699350229090304, 89203022000190361898534933108612314714603520, 89203064535486227015842866030438243685629952, 89203149606077957250458731874090101627682816, 89203319747261417719690463561393817511788544, 89203660029628338658153926936001249280000000, 89204340594362180535080853685216112816422912, 89205701723829864288934707183645839889268736, 89208423982765231796642414180505294034960384, 89213868500635966812057828174224202326343680, 10890364969465815746700891244876863111168, 89235649230574898443551229956713956052566016, 89279205373540778566874541906465222383632384, 89366317659472538813521165805967755045765120, 89540542231336059306814413604972820370030592, 89888991375063100293400909202982951018561536, 90585889662517182266573900399003212315623424, 91979686237425346212919882791043734909747200, 94767279387241674105611847575124780097994752, 100342465686874329890995777143286870474489856, 111492838286139641461763636279611051227480064, 133793583484670264603299354552259412733460480, 44601490397061246283071436545296723011960832, 89202980794122492566142873090593446023921664, 178405961588244985132285746181186892047843328, 356811923176489970264571492362373784095686656, 713623846352979940529142984724747568191373312]

/-- the classes by number -/
def classTab : List FNT := [.file, .suite false, .suite true, .linebreaksOpt, .comments, .stmts false, .stmts true, .stmt false, .stmt true, .defHeader, .defHeaderTypeOpt, .blockStmt false, .blockStmt true, .ifChain false, .ifChain true, .ifElseBlock false, .ifElseBlock true, .elif_, .simpleStmt, .smallStmtsContinuation, .smallStmt, .semiOpt, .primary, .primaryInt, .argumentsOpt, .arguments, .argument, .loadArguments, .loadArgument, .parametersOpt, .parametersTypeOpt, .parameters, .parametersType, .parameter, .parameterType, .expr, .exprOpt, .tests, .testOpt, .testsOpt, .commaOpt, .commas, .commasOpt, .keyvalue, .keyvaluesNoComma, .keyvalues, .loopVars, .string, .ident, .number, .numberInt, .forClause false, .forClause true, .clauses false, .clauses true, .forClausesWithIfClausesOpt, .any 2, .test 2 false, .test 3 false, .test 4 false, .test 5 false, .test 6 false, .test 7 false, .test 8 false, .test 9 false, .test 10 false, .test 11 false, .test 12 false, .test 13 false, .test 2 true, .test 3 true, .test 4 true, .test 5 true, .test 6 true, .test 7 true, .test 8 true, .test 9 true, .test 10 true, .test 11 true, .test 12 true, .test 13 true, .lambdaBody, .any 3, .primaryExpr, .anyStmts, .anyIfChain]

/-! ## The check -/

/-- the row of shifts and gotos has every shift of the tables -/
def shiftsOK (s : Nat) : Bool :=
  allBelow (fun t => match action s t with
    | .shift n => (match find (row moveTab s) t with | some n' => Nat.beq n n' | none => false)
    | .reduce r => (match find (row redTab s) r with | some m => Nat.testBit m t | none => false) || Nat.beq t 0
    | _ => true) 64

/-- and every goto in it is a goto of the tables -/
def movesOK (s : Nat) : List (Nat × Nat) → Bool
  | [] => true
  | (x, n) :: l => (bif Nat.blt x 64 then true else Nat.beq (gotoN s (x - 64)) n) && movesOK s l

/-- which of the right-hand sides start with a class that includes class `a` -/
def colMask (sup : Nat) : List Nat → Nat
  | [] => 0
  | x :: xs => bif Nat.testBit sup x then Nat.lor 1 (Nat.shiftLeft (colMask sup xs) 1) else Nat.shiftLeft (colMask sup xs) 1

/-- add a pair to a list unless it is there -/
def ins (c m : Nat) : List (Nat × Nat) → List (Nat × Nat)
  | [] => [(c, m)]
  | (c', m') :: l => bif Nat.beq c c' && Nat.beq m m' then (c', m') :: l else (c', m') :: ins c m l

/-- tokens that can come first in class `a` or, if it is empty, after it -/
def startMask (a m : Nat) : Nat := bif nullable a then Nat.lor (nthN firstTab (a - 64)) m else nthN firstTab (a - 64)

/-- from a configuration (productions that still fit, possible next tokens), over the labels `l` that refine nonterminal `x` -/
def overLabels (x : Nat) (col : List Nat) (cm pm : Nat) : List (Nat × Nat) → List (Nat × Nat) → List (Nat × Nat)
  | [], acc => acc
  | (a, m) :: l, acc =>
    overLabels x col cm pm l
      (bif Nat.beq (nthN baseTab (a - 64)) x then
        bif Nat.beq (Nat.land pm (startMask a m)) 0 then acc else ins (Nat.land cm (colMask (nthN supTab (a - 64)) col)) m acc
      else acc)

def overConfigs (x : Nat) (col : List Nat) (lab : List (Nat × Nat)) : List (Nat × Nat) → List (Nat × Nat) → List (Nat × Nat)
  | [], acc => acc
  | (cm, pm) :: l, acc => overConfigs x col lab l (overLabels x col cm pm lab acc)

/-- after token `k` any token can come -/
def overToken (k : Nat) : List (Nat × Nat) → List (Nat × Nat) → List (Nat × Nat)
  | [], acc => acc
  | (cm, pm) :: l, acc => overToken k l (bif Nat.testBit pm k then ins cm allMask acc else acc)

/-- some production that fits has a label with all the tokens -/
def endOne (m : Nat) (lab : List (Nat × Nat)) : Nat → List Nat → Bool
  | _, [] => false
  | cm, l :: ls => (bif Nat.testBit cm 0 then subOpt m (find lab l) else false) || endOne m lab (Nat.shiftRight cm 1) ls

def endAll (rm : Nat) (lab : List (Nat × Nat)) (ls : List Nat) : List (Nat × Nat) → Bool
  | [] => true
  | (cm, pm) :: l => (bif Nat.beq (Nat.land pm rm) 0 then true else endOne (Nat.land pm rm) lab cm ls) && endAll rm lab ls l

def heads : List (List Nat) → List Nat
  | [] => []
  | [] :: l => 0 :: heads l
  | (x :: _) :: l => x :: heads l

def tails : List (List Nat) → List (List Nat)
  | [] => []
  | [] :: l => [] :: tails l
  | (_ :: xs) :: l => xs :: tails l

/-- Walk from state `s` (with its rows) along the symbols of production `r`: wherever the tables reduce it, one of the refined productions fits the
labels on the way, and its class is a label of the first state, whose row is `lab0`. -/
def walkOK (r : Nat) (lab0 : List (Nat × Nat)) (ls : List Nat) : List Nat → Nat → List (Nat × Nat) → List (List Nat) → List (Nat × Nat) → Bool
  | [], s, _, _, cfgs => (match find (row redTab s) r with | none => true | some rm => endAll rm lab0 ls cfgs)
  | x :: xs, s, lab, rests, cfgs =>
    match (bif Nat.blt x 64 then overToken x cfgs [] else overConfigs (x - 64) (heads rests) lab cfgs []) with
    | [] => true
    | cfgs' => match find (row moveTab s) x with
      | none => Nat.blt x 64
      | some n => walkOK r lab0 ls xs n (row labTab n) (tails rests) cfgs'

def checkRules (s : Nat) (lab : List (Nat × Nat)) : List (Nat × List Nat × List Nat × List (List Nat)) → Bool
  | [] => true
  | (r, xs, ls, rests) :: l => walkOK r lab ls xs s lab rests [(allProds, allMask)] && checkRules s lab l

/-- every class in a row of classes is included in a class of the row, or the class itself -/
def supOK (a : Nat) : Nat → List Nat → Bool
  | _, [] => true
  | before, b :: l => (Nat.beq a b || fcode.any (fun p => Nat.beq p.1 b && Nat.beq p.2.1 0 && (match p.2.2 with | [c] => Nat.testBit before c | _ => false))) &&
      supOK a (Nat.lor before (Nat.shiftLeft 1 b)) l

def maskOf : List Nat → Nat
  | [] => 0
  | b :: l => Nat.lor (Nat.shiftLeft 1 b) (maskOf l)

set_option maxRecDepth 100000 in
theorem check_shifts_0 : allBelow (fun i => (shiftsOK) (0 + i)) 67 = true := by decide +kernel

set_option maxRecDepth 100000 in
theorem check_shifts_1 : allBelow (fun i => (shiftsOK) (67 + i)) 67 = true := by decide +kernel

set_option maxRecDepth 100000 in
theorem check_shifts_2 : allBelow (fun i => (shiftsOK) (134 + i)) 67 = true := by decide +kernel

set_option maxRecDepth 100000 in
theorem check_shifts_3 : allBelow (fun i => (shiftsOK) (201 + i)) 66 = true := by decide +kernel

theorem check_shifts : allBelow (shiftsOK) 267 = true :=
  allBelow_join (shiftsOK) 201 66 (allBelow_join (shiftsOK) 134 67 (allBelow_join (shiftsOK) 67 67 (allBelow_join (shiftsOK) 0 67 rfl check_shifts_0) check_shifts_1) check_shifts_2) check_shifts_3

set_option maxRecDepth 100000 in
theorem check_moves_0 : allBelow (fun i => (fun s => movesOK s (row moveTab s)) (0 + i)) 67 = true := by decide +kernel

set_option maxRecDepth 100000 in
theorem check_moves_1 : allBelow (fun i => (fun s => movesOK s (row moveTab s)) (67 + i)) 67 = true := by decide +kernel

set_option maxRecDepth 100000 in
theorem check_moves_2 : allBelow (fun i => (fun s => movesOK s (row moveTab s)) (134 + i)) 67 = true := by decide +kernel

set_option maxRecDepth 100000 in
theorem check_moves_3 : allBelow (fun i => (fun s => movesOK s (row moveTab s)) (201 + i)) 66 = true := by decide +kernel

theorem check_moves : allBelow (fun s => movesOK s (row moveTab s)) 267 = true :=
  allBelow_join (fun s => movesOK s (row moveTab s)) 201 66 (allBelow_join (fun s => movesOK s (row moveTab s)) 134 67 (allBelow_join (fun s => movesOK s (row moveTab s)) 67 67 (allBelow_join (fun s => movesOK s (row moveTab s)) 0 67 rfl check_moves_0) check_moves_1) check_moves_2) check_moves_3

theorem check_sup : allBelow (fun i => supOK (64 + i) 0 (rowN supList i) && Nat.beq (maskOf (rowN supList i)) (nthN supTab i)) 86 = true := by decide +kernel

/-- rule `r` is production `r` of parse.y, and its refinements are refined productions -/
def ruleOK (q : Nat × List Nat × List Nat × List (List Nat)) : Bool :=
  (match production q.1 with
    | none => false
    | some (_, rhs) => decide (rhs.map (fun x => match x with | .t k => tokNum k | .n a => 64 + ntNum a) = q.2.1)) &&
  Nat.beq q.2.2.1.length q.2.2.2.length && (q.2.2.1.zip q.2.2.2).all (fun p => fcode.contains (p.1, q.1, p.2))

theorem check_ruleTab : ruleTab.all ruleOK = true := by decide +kernel

theorem check_ruleNums : ruleTab.map (·.1) = (List.range 148).map (· + 1) := by decide +kernel

set_option maxRecDepth 100000 in
set_option maxRecDepth 100000 in
theorem check_walk_0 : allBelow (fun i => (fun s => checkRules s (row labTab s) ruleTab) (0 + i)) 34 = true := by decide +kernel

set_option maxRecDepth 100000 in
theorem check_walk_1 : allBelow (fun i => (fun s => checkRules s (row labTab s) ruleTab) (34 + i)) 34 = true := by decide +kernel

set_option maxRecDepth 100000 in
theorem check_walk_2 : allBelow (fun i => (fun s => checkRules s (row labTab s) ruleTab) (68 + i)) 34 = true := by decide +kernel

set_option maxRecDepth 100000 in
theorem check_walk_3 : allBelow (fun i => (fun s => checkRules s (row labTab s) ruleTab) (102 + i)) 34 = true := by decide +kernel

set_option maxRecDepth 100000 in
theorem check_walk_4 : allBelow (fun i => (fun s => checkRules s (row labTab s) ruleTab) (136 + i)) 34 = true := by decide +kernel

set_option maxRecDepth 100000 in
theorem check_walk_5 : allBelow (fun i => (fun s => checkRules s (row labTab s) ruleTab) (170 + i)) 34 = true := by decide +kernel

set_option maxRecDepth 100000 in
theorem check_walk_6 : allBelow (fun i => (fun s => checkRules s (row labTab s) ruleTab) (204 + i)) 34 = true := by decide +kernel

set_option maxRecDepth 100000 in
theorem check_walk_7 : allBelow (fun i => (fun s => checkRules s (row labTab s) ruleTab) (238 + i)) 29 = true := by decide +kernel

theorem check_walk : allBelow (fun s => checkRules s (row labTab s) ruleTab) 267 = true :=
  allBelow_join (fun s => checkRules s (row labTab s) ruleTab) 238 29 (allBelow_join (fun s => checkRules s (row labTab s) ruleTab) 204 34 (allBelow_join (fun s => checkRules s (row labTab s) ruleTab) 170 34 (allBelow_join (fun s => checkRules s (row labTab s) ruleTab) 136 34 (allBelow_join (fun s => checkRules s (row labTab s) ruleTab) 102 34 (allBelow_join (fun s => checkRules s (row labTab s) ruleTab) 68 34 (allBelow_join (fun s => checkRules s (row labTab s) ruleTab) 34 34 (allBelow_join (fun s => checkRules s (row labTab s) ruleTab) 0 34 rfl check_walk_0) check_walk_1) check_walk_2) check_walk_3) check_walk_4) check_walk_5) check_walk_6) check_walk_7

theorem check_file : find (row labTab 0) (fntNum .file) = some allMask := by decide +kernel

/-- the numbers of the classes in the productions -/
theorem check_classes : fine.all (fun p => decide (classTab[fntNum p.1 - 64]? = some p.1) &&
    p.2.2.all (fun x => match x with | .t _ => true | .n a => decide (classTab[fntNum a - 64]? = some a) && Nat.blt 63 (fntNum a))) = true := by decide +kernel

/-- the base of a class -/
theorem check_base : fine.all (fun p => decide (nthN baseTab (fntNum p.1 - 64) = ntNum p.1.base)) = true := by decide +kernel

end Verif.Parser
