import Verif.Model.Np

/-!
# The utility factor table (`python/fastsim/resources/longparams.json`)
-/

namespace Fastsim

/-- `rechgFreqMiles` and `ufArray` of resources/longparams.json (loaded in parameters.py:159-165): miles driven between
charges and the share of driving done electrically, the latter in units of `1e-18`, exactly as written in the file. -/
def ufRaw : List (Nat × Nat) := [
  (0, 0), (1, 24550000000000002), (3, 72570000000000000), (5, 118780000000000000),
  (7, 162680000000000020), (9, 204400000000000030), (11, 244010000000000000), (13, 281520000000000000),
  (15, 316980000000000000), (17, 350430000000000000), (19, 381940000000000000), (21, 411880000000000000),
  (23, 439920000000000000), (25, 466520000000000000), (27, 491480000000000030), (29, 515060000000000000),
  (31, 537370000000000000), (33, 558120000000000000), (35, 577710000000000100), (37, 596109999999999900),
  (39, 613470000000000000), (41, 629980000000000000), (43, 645320000000000000), (45, 659899999999999900),
  (47, 673620000000000000), (49, 686620000000000000), (51, 698970000000000100), (53, 710490000000000100),
  (55, 721410000000000100), (57, 731850000000000000), (59, 741760000000000000), (61, 751260000000000000),
  (63, 760050000000000000), (65, 768479999999999900), (67, 776480000000000000), (69, 784110000000000000),
  (71, 791410000000000100), (73, 798250000000000000), (75, 804760000000000000), (77, 810950000000000000),
  (79, 816910000000000000), (81, 822639999999999900), (83, 828000000000000000), (85, 833170000000000000),
  (87, 838080000000000000), (89, 842780000000000100), (91, 847309999999999900), (93, 851599999999999900),
  (95, 855710000000000000), (97, 859660000000000000), (99, 863480000000000000), (101, 867159999999999900),
  (103, 870649999999999900), (105, 874030000000000100), (107, 877270000000000000), (109, 880379999999999900),
  (111, 883379999999999900), (113, 886250000000000000), (115, 889039999999999900), (117, 891740000000000100),
  (119, 894350000000000000), (121, 896900000000000000), (123, 899320000000000000), (125, 901670000000000000),
  (127, 903960000000000000), (129, 906170000000000000), (131, 908319999999999900), (133, 910380000000000000),
  (135, 912390000000000000), (137, 914330000000000100), (139, 916200000000000000), (141, 917999999999999900),
  (143, 919750000000000000), (145, 921460000000000100), (147, 923130000000000000), (149, 924750000000000000),
  (151, 926330000000000000), (153, 927860000000000000), (155, 929360000000000100), (157, 930820000000000000),
  (159, 932240000000000100), (161, 933630000000000000), (163, 934980000000000000), (165, 936280000000000000),
  (167, 937540000000000000), (169, 938780000000000000), (171, 939990000000000000), (173, 941149999999999900),
  (175, 942290000000000000), (177, 943400000000000000), (179, 944500000000000000), (181, 945570000000000000),
  (183, 946590000000000000), (185, 947600000000000000), (187, 948589999999999900), (189, 949550000000000000),
  (191, 950500000000000000), (193, 951419999999999900), (195, 952330000000000000), (197, 953210000000000000),
  (199, 954080000000000000), (201, 954940000000000000), (203, 955759999999999900), (205, 956569999999999900),
  (207, 957369999999999900), (209, 958160000000000000), (211, 958920000000000000), (213, 959670000000000000),
  (215, 960410000000000000), (217, 961140000000000000), (219, 961850000000000000), (221, 962549999999999900),
  (223, 963229999999999900), (225, 963900000000000000), (227, 964569999999999900), (229, 965229999999999900),
  (231, 965870000000000000), (233, 966490000000000000), (235, 967100000000000000), (237, 967700000000000000),
  (239, 968290000000000000), (241, 968870000000000000), (243, 969430000000000000), (245, 969989999999999900),
  (247, 970530000000000000), (249, 971070000000000000), (251, 971590000000000100), (253, 972079999999999900),
  (255, 972549999999999900), (257, 973020000000000100), (259, 973480000000000000), (261, 973930000000000000),
  (263, 974360000000000100), (265, 974780000000000000), (267, 975200000000000000), (269, 975610000000000100),
  (271, 976020000000000000), (273, 976420000000000000), (275, 976810000000000000), (277, 977200000000000000),
  (279, 977580000000000000), (281, 977950000000000000), (283, 978320000000000000), (285, 978690000000000000),
  (287, 979039999999999900), (289, 979390000000000000), (291, 979730000000000000), (293, 980070000000000000),
  (295, 980400000000000000), (297, 980729999999999900), (299, 981059999999999900), (301, 981390000000000000),
  (303, 981700000000000000), (305, 982000000000000000), (307, 982290000000000000), (309, 982580000000000000),
  (311, 982870000000000000), (313, 983139999999999900), (315, 983400000000000000), (317, 983660000000000000),
  (319, 983919999999999900), (321, 984170000000000000), (323, 984410000000000000), (325, 984650000000000000),
  (327, 984880000000000000), (329, 985109999999999900), (331, 985330000000000000), (333, 985540000000000000),
  (335, 985750000000000000), (337, 985950000000000000), (339, 986150000000000000), (341, 986340000000000000),
  (343, 986530000000000000), (345, 986710000000000100), (347, 986889999999999900), (349, 987069999999999900),
  (351, 987240000000000000), (353, 987410000000000000), (355, 987570000000000100), (357, 987730000000000000),
  (359, 987890000000000000), (361, 988050000000000100), (363, 988200000000000000), (365, 988350000000000000),
  (367, 988499999999999900), (369, 988640000000000100), (371, 988780000000000000), (373, 988919999999999900),
  (375, 989060000000000000), (377, 989200000000000000), (379, 989340000000000000), (381, 989479999999999900),
  (383, 989610000000000000), (385, 989740000000000100), (387, 989869999999999900), (389, 990000000000000000),
  (391, 990120000000000000), (393, 990240000000000000), (395, 990370000000000100), (397, 990480000000000000),
  (399, 990600000000000000), (401, 990720000000000000), (403, 990830000000000000), (405, 990939999999999900),
  (407, 991050000000000000), (409, 991150000000000000), (411, 991260000000000000), (413, 991359999999999900),
  (415, 991460000000000000), (417, 991560000000000100), (419, 991660000000000000), (421, 991760000000000000),
  (423, 991860000000000100), (425, 991949999999999900), (427, 992050000000000000), (429, 992140000000000000),
  (431, 992230000000000000), (433, 992320000000000000), (435, 992410000000000000), (437, 992490000000000000),
  (439, 992579999999999900), (441, 992669999999999900), (443, 992750000000000000), (445, 992840000000000100),
  (447, 992930000000000100), (449, 993010000000000100), (451, 993090000000000000), (453, 993169999999999900),
  (455, 993250000000000100), (457, 993329999999999900), (459, 993409999999999900), (461, 993480000000000000),
  (463, 993560000000000000), (465, 993630000000000000), (467, 993710000000000000), (469, 993790000000000100),
  (471, 993860000000000000), (473, 993930000000000000), (475, 994010000000000000), (477, 994080000000000000),
  (479, 994150000000000100), (481, 994220000000000000), (483, 994290000000000000), (485, 994360000000000000),
  (487, 994420000000000000), (489, 994490000000000000), (491, 994549999999999900), (493, 994610000000000000),
  (495, 994680000000000000), (497, 994740000000000100), (499, 994800000000000000), (501, 994869999999999900),
  (503, 994930000000000000), (505, 994989999999999900), (507, 995040000000000000), (509, 995100000000000100),
  (511, 995160000000000000), (513, 995210000000000000), (515, 995270000000000000), (517, 995330000000000000),
  (519, 995379999999999900), (521, 995440000000000000), (523, 995490000000000100), (525, 995550000000000000),
  (527, 995600000000000000), (529, 995660000000000000), (531, 995710000000000000), (533, 995760000000000000),
  (535, 995810000000000100), (537, 995860000000000000), (539, 995910000000000000), (541, 995960000000000100),
  (543, 996010000000000000), (545, 996060000000000000), (547, 996110000000000000), (549, 996160000000000000),
  (551, 996209999999999900), (553, 996250000000000000), (555, 996290000000000000), (557, 996340000000000000),
  (559, 996380000000000000), (561, 996420000000000000), (563, 996470000000000100), (565, 996510000000000000),
  (567, 996550000000000000), (569, 996590000000000100), (571, 996630000000000000), (573, 996670000000000100),
  (575, 996719999999999900), (577, 996760000000000000), (579, 996790000000000100), (581, 996830000000000100),
  (583, 996869999999999900), (585, 996900000000000000), (587, 996940000000000000), (589, 996980000000000000),
  (591, 997010000000000000), (593, 997050000000000000), (595, 997090000000000000), (597, 997130000000000000),
  (599, 997159999999999900), (601, 997200000000000000), (603, 997240000000000000), (605, 997270000000000000),
  (607, 997309999999999900), (609, 997339999999999900), (611, 997370000000000000), (613, 997410000000000000),
  (615, 997440000000000000), (617, 997470000000000000), (619, 997500000000000000), (621, 997530000000000000),
  (623, 997560000000000000), (625, 997590000000000000), (627, 997620000000000000), (629, 997650000000000000),
  (631, 997680000000000000), (633, 997720000000000000), (635, 997750000000000000), (637, 997780000000000100),
  (639, 997810000000000100), (641, 997840000000000100), (643, 997870000000000000), (645, 997900000000000000),
  (647, 997930000000000100), (649, 997950000000000000), (651, 997980000000000000), (653, 998010000000000100),
  (655, 998040000000000000), (657, 998070000000000000), (659, 998100000000000000), (661, 998130000000000100),
  (663, 998160000000000000), (665, 998180000000000000), (667, 998209999999999900), (669, 998230000000000000),
  (671, 998259999999999900), (673, 998280000000000100), (675, 998310000000000000), (677, 998329999999999900),
  (679, 998350000000000000), (681, 998370000000000000), (683, 998390000000000000), (685, 998409999999999900),
  (687, 998430000000000000), (689, 998440000000000000), (691, 998460000000000000), (693, 998480000000000000),
  (695, 998499999999999900), (697, 998520000000000100), (699, 998529999999999900), (701, 998550000000000000),
  (703, 998570000000000000), (705, 998590000000000000), (707, 998600000000000000), (709, 998620000000000000),
  (711, 998640000000000100), (713, 998649999999999900), (715, 998670000000000100), (717, 998690000000000000),
  (719, 998700000000000000), (721, 998720000000000000), (723, 998740000000000000), (725, 998750000000000000),
  (727, 998769999999999900), (729, 998780000000000000), (731, 998799999999999900), (733, 998810000000000000),
  (735, 998820000000000000), (737, 998840000000000000), (739, 998850000000000000), (741, 998860000000000000),
  (743, 998870000000000000), (745, 998880000000000100), (747, 998900000000000000), (749, 998910000000000100),
  (751, 998919999999999900), (753, 998930000000000000), (755, 998950000000000000), (757, 998960000000000000),
  (759, 998970000000000000), (761, 998980000000000000), (763, 998990000000000000), (765, 999000000000000100),
  (767, 999020000000000000), (769, 999030000000000100), (771, 999039999999999900), (773, 999050000000000000),
  (775, 999060000000000100), (777, 999070000000000000), (779, 999080000000000000), (781, 999090000000000000),
  (783, 999100000000000000), (785, 999110000000000000), (787, 999120000000000000), (789, 999130000000000000),
  (791, 999150000000000100), (793, 999159999999999900), (795, 999170000000000000), (797, 999180000000000100),
  (799, 999190000000000000), (801, 999200000000000000), (803, 999210000000000000), (805, 999220000000000000),
  (807, 999220000000000000), (809, 999230000000000100), (811, 999240000000000000), (813, 999250000000000000),
  (815, 999250000000000000), (817, 999260000000000000), (819, 999270000000000100), (821, 999280000000000000),
  (823, 999280000000000000), (825, 999290000000000000), (827, 999300000000000100), (829, 999300000000000100),
  (831, 999309999999999900), (833, 999320000000000000), (835, 999320000000000000), (837, 999330000000000000),
  (839, 999330000000000000), (841, 999340000000000000), (843, 999350000000000100), (845, 999350000000000100),
  (847, 999360000000000000), (849, 999360000000000000), (851, 999370000000000000), (853, 999380000000000000),
  (855, 999380000000000000), (857, 999389999999999900), (859, 999400000000000000), (861, 999400000000000000),
  (863, 999410000000000000), (865, 999410000000000000), (867, 999420000000000000), (869, 999429999999999900),
  (871, 999429999999999900), (873, 999440000000000000), (875, 999440000000000000), (877, 999450000000000000),
  (879, 999460000000000000), (881, 999460000000000000), (883, 999470000000000100), (885, 999479999999999900),
  (887, 999479999999999900), (889, 999490000000000000), (891, 999490000000000000), (893, 999500000000000000),
  (895, 999509999999999900), (897, 999509999999999900), (899, 999520000000000000), (901, 999520000000000000),
  (903, 999530000000000000), (905, 999540000000000000), (907, 999540000000000000), (909, 999549999999999900),
  (911, 999560000000000000), (913, 999560000000000000), (915, 999570000000000000), (917, 999570000000000000),
  (919, 999580000000000000), (921, 999590000000000000), (923, 999590000000000000), (925, 999599999999999900),
  (927, 999610000000000000), (929, 999610000000000000), (931, 999620000000000100), (933, 999620000000000100),
  (935, 999629999999999900), (937, 999640000000000000), (939, 999640000000000000), (941, 999650000000000000),
  (943, 999650000000000000), (945, 999660000000000000), (947, 999670000000000000), (949, 999670000000000000),
  (951, 999680000000000000), (953, 999680000000000000), (955, 999690000000000000), (957, 999690000000000000),
  (959, 999700000000000000), (961, 999700000000000000), (963, 999710000000000000), (965, 999710000000000000),
  (967, 999719999999999900), (969, 999719999999999900), (971, 999730000000000000), (973, 999730000000000000),
  (975, 999730000000000000), (977, 999740000000000100), (979, 999740000000000100), (981, 999749999999999900),
  (983, 999749999999999900), (985, 999760000000000000), (987, 999760000000000000), (989, 999760000000000000),
  (991, 999770000000000000), (993, 999770000000000000), (995, 999770000000000000), (997, 999779999999999900),
  (999, 999779999999999900), (1001, 999779999999999900), (1003, 999790000000000000), (1005, 999790000000000000),
  (1007, 999790000000000000), (1009, 999790000000000000), (1011, 999800000000000000), (1013, 999800000000000000),
  (1015, 999800000000000000), (1017, 999810000000000000), (1019, 999810000000000000), (1021, 999810000000000000),
  (1023, 999820000000000000), (1025, 999820000000000000), (1027, 999820000000000000), (1029, 999830000000000000),
  (1031, 999830000000000000), (1033, 999830000000000000), (1035, 999830000000000000), (1037, 999840000000000000),
  (1039, 999840000000000000), (1041, 999840000000000000), (1043, 999850000000000000), (1045, 999850000000000000),
  (1047, 999850000000000000), (1049, 999860000000000100), (1051, 999860000000000100), (1053, 999860000000000100),
  (1055, 999869999999999900), (1057, 999869999999999900), (1059, 999869999999999900), (1061, 999880000000000000),
  (1063, 999880000000000000), (1065, 999880000000000000), (1067, 999880000000000000), (1069, 999890000000000100),
  (1071, 999890000000000100), (1073, 999890000000000100), (1075, 999899999999999900), (1077, 999899999999999900),
  (1079, 999899999999999900), (1081, 999910000000000000), (1083, 999910000000000000), (1085, 999910000000000000),
  (1087, 999910000000000000), (1089, 999910000000000000), (1091, 999920000000000000), (1093, 999920000000000000),
  (1095, 999920000000000000), (1097, 999920000000000000), (1099, 999920000000000000), (1101, 999920000000000000),
  (1103, 999920000000000000), (1105, 999930000000000000), (1107, 999930000000000000), (1109, 999930000000000000),
  (1111, 999930000000000000), (1113, 999930000000000000), (1115, 999930000000000000), (1117, 999940000000000000),
  (1119, 999940000000000000), (1121, 999940000000000000), (1123, 999940000000000000), (1125, 999940000000000000),
  (1127, 999940000000000000), (1129, 999940000000000000), (1131, 999950000000000000), (1133, 999950000000000000),
  (1135, 999950000000000000), (1137, 999950000000000000), (1139, 999950000000000000), (1141, 999950000000000000),
  (1143, 999960000000000000), (1145, 999960000000000000), (1147, 999960000000000000), (1149, 999960000000000000),
  (1151, 999960000000000000), (1153, 999960000000000000), (1155, 999960000000000000), (1157, 999970000000000000),
  (1159, 999970000000000000), (1161, 999970000000000000), (1163, 999970000000000000), (1165, 999970000000000000),
  (1167, 999970000000000000), (1169, 999980000000000100), (1171, 999980000000000100), (1173, 999980000000000100),
  (1175, 999980000000000100), (1177, 999980000000000100), (1179, 999980000000000100), (1181, 999980000000000100),
  (1183, 999989999999999900), (1185, 999989999999999900), (1187, 999989999999999900), (1189, 999989999999999900),
  (1191, 999989999999999900), (1193, 999989999999999900), (1195, 1000000000000000000), (1197, 1000000000000000000),
  (1199, 1000000000000000000), (1201, 1000000000000000000)]

/-- The table as numbers. -/
def ufTable {K : Type*} [NatCast K] [Div K] : List (K × K) :=
  ufRaw.map fun p => ((p.1 : K), (p.2 : K) / ((10 ^ 18 : ℕ) : K))

end Fastsim
