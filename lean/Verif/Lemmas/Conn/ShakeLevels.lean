import Verif.Lemmas.Conn.ShakeCheck

/- Some levels of the exploration, written out so that its parts can be checked one at a time (`tools/shake_levels.txt` prints them). Nothing
depends on how they were found: `ShakePart1` to `ShakePart5` check them. -/

set_option autoImplicit false

namespace M3.Conn.Shake

/-- The states after 46 steps. -/
def level46 : List (Nat × P) := [
  (18895447908138284352608, ⟨⟨.inactive, false, false, .waiting, [], [0, 1, 19, 1, 4], 2, 0⟩, ⟨.inactive, true, false, .waiting, [.act], [0, 1, 14, 1, 6], 1, 0⟩, [], []⟩),
  (18895447908121104547936, ⟨⟨.inactive, false, false, .waiting, [], [0, 1, 19, 1, 4], 2, 0⟩, ⟨.inactive, false, false, .idle, [.act], [0, 1, 15, 0, 6], 1, 0⟩, [], []⟩),
  (5980850759796720736, ⟨⟨.inactive, false, false, .idle, [], [0, 1, 19, 0, 4], 2, 0⟩, ⟨.inactive, false, false, .waiting, [.act], [0, 1, 15, 1, 6], 1, 0⟩, [], []⟩),
  (5908793097039381600, ⟨⟨.inactive, true, false, .idle, [], [0, 1, 18, 0, 4], 2, 0⟩, ⟨.inactive, false, false, .waiting, [], [0, 1, 16, 1, 6], 1, 0⟩, [], []⟩),
  (5908793080194013184, ⟨⟨.inactive, true, false, .idle, [], [0, 1, 18, 0, 4], 2, 0⟩, ⟨.inactive, false, false, .idle, [], [0, 1, 17, 0, 6, 0], 1, 0⟩, [], []⟩),
  (18895375850458347208800, ⟨⟨.inactive, true, false, .waiting, [], [0, 1, 18, 1, 4], 2, 0⟩, ⟨.inactive, false, false, .idle, [], [0, 1, 16, 0, 6], 1, 0⟩, [], []⟩),
  (5980850673897439328, ⟨⟨.inactive, false, false, .idle, [], [0, 1, 19, 0, 4], 2, 0⟩, ⟨.inactive, false, false, .idle, [], [0, 1, 16, 0, 6], 1, 0⟩, [], []⟩),
  (18895375850544246490208, ⟨⟨.inactive, true, false, .waiting, [], [0, 1, 18, 1, 4], 2, 0⟩, ⟨.inactive, false, false, .waiting, [.act], [0, 1, 15, 1, 6], 1, 0⟩, [], []⟩),
  (18895447908069564941412, ⟨⟨.inactive, false, false, .waiting, [], [0, 1, 19, 1, 4], 2, 0⟩, ⟨.inactive, false, false, .waiting, [], [0, 1, 15, 1, 6], 1, 0⟩, [.act], []⟩)]

/-- The states after 60 steps. -/
def level60 : List (Nat × P) := [
  (18895447908087108737105, ⟨⟨.inactive, false, false, .waiting, [], [0, 1, 19, 1, 4], 2, 0⟩, ⟨.active, true, true, .idle, [], [2, 1, 24, 0, 6, 5], 2, 1⟩, [], [.actAck]⟩),
  (18895447909186616236113, ⟨⟨.inactive, false, false, .waiting, [], [0, 1, 19, 1, 4], 2, 0⟩, ⟨.active, true, true, .waiting, [], [2, 1, 23, 1, 6, 5], 2, 1⟩, [], [.actAck]⟩),
  (94453311634001427961936, ⟨⟨.inactive, false, false, .waiting, [.actAck], [0, 1, 19, 1, 4], 2, 0⟩, ⟨.active, true, true, .idle, [], [2, 1, 23, 0, 6, 5], 2, 1⟩, [], []⟩),
  (18895447909169440561233, ⟨⟨.inactive, false, false, .waiting, [], [0, 1, 19, 1, 4], 2, 0⟩, ⟨.active, true, true, .waiting, [], [1, 1, 24, 1, 6, 5], 2, 0⟩, [], [.actAck]⟩),
  (18895375851592582502481, ⟨⟨.inactive, true, false, .waiting, [], [0, 1, 18, 1, 4], 2, 0⟩, ⟨.active, true, true, .waiting, [], [2, 1, 24, 1, 6, 5], 2, 1⟩, [], [.actAck]⟩),
  (5980851808132733009, ⟨⟨.inactive, false, false, .idle, [], [0, 1, 19, 0, 4], 2, 0⟩, ⟨.active, true, true, .waiting, [], [2, 1, 24, 1, 6, 5], 2, 1⟩, [], [.actAck]⟩),
  (5980851790957058129, ⟨⟨.inactive, false, false, .idle, [], [0, 1, 19, 0, 4], 2, 0⟩, ⟨.active, false, true, .waiting, [], [1, 1, 25, 1, 6, 5], 2, 0⟩, [], [.actAck]⟩),
  (18895375851575406827601, ⟨⟨.inactive, true, false, .waiting, [], [0, 1, 18, 1, 4], 2, 0⟩, ⟨.active, false, true, .waiting, [], [1, 1, 25, 1, 6, 5], 2, 0⟩, [], [.actAck]⟩),
  (18895447908069933062225, ⟨⟨.inactive, false, false, .waiting, [], [0, 1, 19, 1, 4], 2, 0⟩, ⟨.active, false, true, .idle, [], [1, 1, 25, 0, 6, 5], 2, 0⟩, [], [.actAck]⟩),
  (5908794214098999377, ⟨⟨.inactive, true, false, .idle, [], [0, 1, 18, 0, 4], 2, 0⟩, ⟨.active, false, true, .waiting, [], [2, 1, 25, 1, 6, 5], 2, 1⟩, [], [.actAck]⟩),
  (18895375850493075003473, ⟨⟨.inactive, true, false, .waiting, [], [0, 1, 18, 1, 4], 2, 0⟩, ⟨.active, false, true, .idle, [], [2, 1, 25, 0, 6, 5], 2, 1⟩, [], [.actAck]⟩),
  (5980850708625234001, ⟨⟨.inactive, false, false, .idle, [], [0, 1, 19, 0, 4], 2, 0⟩, ⟨.active, false, true, .idle, [], [2, 1, 25, 0, 6, 5], 2, 1⟩, [], [.actAck]⟩),
  (75563772520111242549328, ⟨⟨.inactive, true, false, .idle, [.actAck], [0, 1, 18, 0, 4], 2, 0⟩, ⟨.active, false, true, .waiting, [], [1, 1, 25, 1, 6, 5], 2, 0⟩, [], []⟩),
  (75563772520128418224208, ⟨⟨.inactive, true, false, .idle, [.actAck], [0, 1, 18, 0, 4], 2, 0⟩, ⟨.active, true, true, .waiting, [], [2, 1, 24, 1, 6, 5], 2, 1⟩, [], []⟩),
  (75563772519028910725200, ⟨⟨.inactive, true, false, .idle, [.actAck], [0, 1, 18, 0, 4], 2, 0⟩, ⟨.active, false, true, .idle, [], [2, 1, 25, 0, 6, 5], 2, 1⟩, [], []⟩),
  (94453239577489726052432, ⟨⟨.inactive, true, false, .waiting, [.actAck], [0, 1, 18, 1, 4], 2, 0⟩, ⟨.active, true, true, .waiting, [], [1, 1, 24, 1, 6, 5], 2, 0⟩, [], []⟩),
  (94453239576390218553424, ⟨⟨.inactive, true, false, .waiting, [.actAck], [0, 1, 18, 1, 4], 2, 0⟩, ⟨.active, false, true, .idle, [], [1, 1, 25, 0, 6, 5], 2, 0⟩, [], []⟩),
  (94453239576407394228304, ⟨⟨.inactive, true, false, .waiting, [.actAck], [0, 1, 18, 1, 4], 2, 0⟩, ⟨.active, true, true, .idle, [], [2, 1, 24, 0, 6, 5], 2, 1⟩, [], []⟩),
  (75563844577705276282960, ⟨⟨.inactive, false, false, .idle, [.actAck], [0, 1, 19, 0, 4], 2, 0⟩, ⟨.active, true, true, .waiting, [], [1, 1, 24, 1, 6, 5], 2, 0⟩, [], []⟩),
  (75563844576605768783952, ⟨⟨.inactive, false, false, .idle, [.actAck], [0, 1, 19, 0, 4], 2, 0⟩, ⟨.active, false, true, .idle, [], [1, 1, 25, 0, 6, 5], 2, 0⟩, [], []⟩),
  (75563844576622944458832, ⟨⟨.inactive, false, false, .idle, [.actAck], [0, 1, 19, 0, 4], 2, 0⟩, ⟨.active, true, true, .idle, [], [2, 1, 24, 0, 6, 5], 2, 1⟩, [], []⟩),
  (94453311633984252287056, ⟨⟨.inactive, false, false, .waiting, [.actAck], [0, 1, 19, 1, 4], 2, 0⟩, ⟨.active, true, true, .idle, [], [1, 1, 24, 0, 6, 5], 2, 0⟩, [], []⟩),
  (18895447910268952189009, ⟨⟨.inactive, false, false, .waiting, [], [0, 1, 19, 1, 4], 2, 0⟩, ⟨.active, true, true, .woken, [], [1, 1, 24, 1, 6, 5], 2, 0⟩, [], [.actAck]⟩),
  (18895375852692094130257, ⟨⟨.inactive, true, false, .waiting, [], [0, 1, 18, 1, 4], 2, 0⟩, ⟨.active, true, true, .woken, [], [2, 1, 24, 1, 6, 5], 2, 1⟩, [], [.actAck]⟩),
  (5980852907644360785, ⟨⟨.inactive, false, false, .idle, [], [0, 1, 19, 0, 4], 2, 0⟩, ⟨.active, true, true, .woken, [], [2, 1, 24, 1, 6, 5], 2, 1⟩, [], [.actAck]⟩),
  (5908795313610627153, ⟨⟨.inactive, true, false, .idle, [], [0, 1, 18, 0, 4], 2, 0⟩, ⟨.active, false, true, .woken, [], [2, 1, 25, 1, 6, 5], 2, 1⟩, [], [.actAck]⟩),
  (18895375852674918455377, ⟨⟨.inactive, true, false, .waiting, [], [0, 1, 18, 1, 4], 2, 0⟩, ⟨.active, false, true, .woken, [], [1, 1, 25, 1, 6, 5], 2, 0⟩, [], [.actAck]⟩),
  (5980852890468685905, ⟨⟨.inactive, false, false, .idle, [], [0, 1, 19, 0, 4], 2, 0⟩, ⟨.active, false, true, .woken, [], [1, 1, 25, 1, 6, 5], 2, 0⟩, [], [.actAck]⟩),
  (5908793097407567953, ⟨⟨.inactive, true, false, .idle, [], [0, 1, 18, 0, 4], 2, 0⟩, ⟨.active, false, true, .idle, [], [1, 1, 25, 2, 6, 5], 2, 0⟩, [], [.actAck]⟩),
  (5908793114583242833, ⟨⟨.inactive, true, false, .idle, [], [0, 1, 18, 0, 4], 2, 0⟩, ⟨.active, true, true, .idle, [], [2, 1, 24, 2, 6, 5], 2, 1⟩, [], [.actAck]⟩),
  (18895375850475891071057, ⟨⟨.inactive, true, false, .waiting, [], [0, 1, 18, 1, 4], 2, 0⟩, ⟨.active, true, true, .idle, [], [1, 1, 24, 2, 6, 5], 2, 0⟩, [], [.actAck]⟩),
  (5980850691441301585, ⟨⟨.inactive, false, false, .idle, [], [0, 1, 19, 0, 4], 2, 0⟩, ⟨.active, true, true, .idle, [], [1, 1, 24, 2, 6, 5], 2, 0⟩, [], [.actAck]⟩),
  (75563772519011726792784, ⟨⟨.inactive, true, false, .idle, [.actAck], [0, 1, 18, 0, 4], 2, 0⟩, ⟨.active, true, true, .idle, [], [1, 1, 24, 2, 6, 5], 2, 0⟩, [], []⟩),
  (75563772521210754177104, ⟨⟨.inactive, true, false, .idle, [.actAck], [0, 1, 18, 0, 4], 2, 0⟩, ⟨.active, false, true, .woken, [], [1, 1, 25, 1, 6, 5], 2, 0⟩, [], []⟩),
  (75563772521227929851984, ⟨⟨.inactive, true, false, .idle, [.actAck], [0, 1, 18, 0, 4], 2, 0⟩, ⟨.active, true, true, .woken, [], [2, 1, 24, 1, 6, 5], 2, 1⟩, [], []⟩),
  (94453239578589237680208, ⟨⟨.inactive, true, false, .waiting, [.actAck], [0, 1, 18, 1, 4], 2, 0⟩, ⟨.active, true, true, .woken, [], [1, 1, 24, 1, 6, 5], 2, 0⟩, [], []⟩),
  (94453239577506901727312, ⟨⟨.inactive, true, false, .waiting, [.actAck], [0, 1, 18, 1, 4], 2, 0⟩, ⟨.active, true, true, .waiting, [], [2, 1, 23, 1, 6, 5], 2, 1⟩, [], []⟩),
  (75563844578804787910736, ⟨⟨.inactive, false, false, .idle, [.actAck], [0, 1, 19, 0, 4], 2, 0⟩, ⟨.active, true, true, .woken, [], [1, 1, 24, 1, 6, 5], 2, 0⟩, [], []⟩),
  (75563844577722451957840, ⟨⟨.inactive, false, false, .idle, [.actAck], [0, 1, 19, 0, 4], 2, 0⟩, ⟨.active, true, true, .waiting, [], [2, 1, 23, 1, 6, 5], 2, 1⟩, [], []⟩),
  (94453311635083759786064, ⟨⟨.inactive, false, false, .waiting, [.actAck], [0, 1, 19, 1, 4], 2, 0⟩, ⟨.active, true, true, .waiting, [], [1, 1, 23, 1, 6, 5], 2, 0⟩, [], []⟩),
  (6052908285479098448, ⟨⟨.inactive, false, false, .idle, [], [0, 1, 20, 0, 4], 2, 0⟩, ⟨.active, true, true, .idle, [], [1, 1, 24, 0, 6, 5], 2, 0⟩, [], []⟩),
  (6052908302654773328, ⟨⟨.inactive, false, false, .idle, [], [0, 1, 20, 0, 4], 2, 0⟩, ⟨.active, true, true, .idle, [], [2, 1, 23, 0, 6, 5], 2, 1⟩, [], []⟩),
  (18895519965663962601552, ⟨⟨.inactive, false, false, .waiting, [], [0, 1, 20, 1, 4], 2, 0⟩, ⟨.active, true, true, .idle, [], [1, 1, 23, 0, 6, 5], 2, 0⟩, [], []⟩),
  (6052909384986597456, ⟨⟨.inactive, false, false, .idle, [], [0, 1, 20, 0, 4], 2, 0⟩, ⟨.active, true, true, .waiting, [], [1, 1, 23, 1, 6, 5], 2, 0⟩, [], []⟩),
  (18895519966746290231376, ⟨⟨.inactive, false, false, .waiting, [], [0, 1, 20, 1, 4], 2, 0⟩, ⟨.active, true, false, .waiting, [], [0, 1, 22, 1, 6, 5], 2, 0⟩, [], []⟩),
  (391997815183500122192, ⟨⟨.inactive, false, false, .idle, [], [0, 1, 21, 0, 4, 0], 2, 0⟩, ⟨.active, true, true, .idle, [], [1, 1, 23, 0, 6, 5], 2, 0⟩, [], []⟩),
  (1209317889487389528692816, ⟨⟨.inactive, false, false, .waiting, [], [0, 1, 21, 1, 4, 0], 2, 0⟩, ⟨.active, true, false, .idle, [], [0, 1, 22, 0, 6, 5], 2, 0⟩, [], []⟩),
  (391997816265827752016, ⟨⟨.inactive, false, false, .idle, [], [0, 1, 21, 0, 4, 0], 2, 0⟩, ⟨.active, true, false, .waiting, [], [0, 1, 22, 1, 6, 5], 2, 0⟩, [], []⟩),
  (1209317889488489036191824, ⟨⟨.inactive, false, false, .waiting, [], [0, 1, 21, 1, 4, 0], 2, 0⟩, ⟨.inactive, true, false, .waiting, [], [0, 1, 21, 1, 6, 5], 2, 0⟩, [], []⟩),
  (396609501184743446608, ⟨⟨.inactive, false, false, .idle, [], [0, 1, 22, 0, 4, 0], 2, 0⟩, ⟨.active, true, false, .idle, [], [0, 1, 22, 0, 6, 5], 2, 0⟩, [], []⟩),
  (391997832758502103120, ⟨⟨.inactive, false, false, .idle, [], [0, 1, 21, 0, 4, 1], 2, 0⟩, ⟨.active, true, false, .idle, [], [0, 1, 22, 0, 6, 5], 2, 0⟩, [], []⟩),
  (1209322501173407951886416, ⟨⟨.inactive, false, false, .waiting, [], [0, 1, 22, 1, 4, 0], 2, 0⟩, ⟨.inactive, true, false, .idle, [], [0, 1, 21, 0, 6, 5], 2, 0⟩, [], []⟩),
  (1209317889504981710542928, ⟨⟨.inactive, false, false, .waiting, [], [0, 1, 21, 1, 4, 1], 2, 0⟩, ⟨.inactive, true, false, .idle, [], [0, 1, 21, 0, 6, 5], 2, 0⟩, [], []⟩),
  (396609502284250945616, ⟨⟨.inactive, false, false, .idle, [], [0, 1, 22, 0, 4, 0], 2, 0⟩, ⟨.inactive, true, false, .waiting, [], [0, 1, 21, 1, 6, 5], 2, 0⟩, [], []⟩),
  (391997833858009602128, ⟨⟨.inactive, false, false, .idle, [], [0, 1, 21, 0, 4, 1], 2, 0⟩, ⟨.inactive, true, false, .waiting, [], [0, 1, 21, 1, 6, 5], 2, 0⟩, [], []⟩),
  (1209322501174507459385424, ⟨⟨.inactive, false, false, .waiting, [], [0, 1, 22, 1, 4, 0], 2, 0⟩, ⟨.inactive, true, false, .waiting, [], [0, 1, 20, 1, 6, 5], 2, 0⟩, [], []⟩),
  (1209317889506081218041936, ⟨⟨.inactive, false, false, .waiting, [], [0, 1, 21, 1, 4, 1], 2, 0⟩, ⟨.inactive, true, false, .waiting, [], [0, 1, 20, 1, 6, 5], 2, 0⟩, [], []⟩),
  (396609518776925296720, ⟨⟨.inactive, false, false, .idle, [], [0, 1, 22, 0, 4, 1], 2, 0⟩, ⟨.inactive, true, false, .idle, [], [0, 1, 21, 0, 6, 5], 2, 0⟩, [], []⟩),
  (391997850350683953232, ⟨⟨.inactive, false, false, .idle, [], [0, 1, 21, 0, 4, 2], 2, 0⟩, ⟨.inactive, true, false, .idle, [], [0, 1, 21, 0, 6, 5], 2, 0⟩, [], []⟩),
  (396609519876432795728, ⟨⟨.inactive, false, false, .idle, [], [0, 1, 22, 0, 4, 1], 2, 0⟩, ⟨.inactive, true, false, .waiting, [], [0, 1, 20, 1, 6, 5], 2, 0⟩, [], []⟩),
  (391997851450191452240, ⟨⟨.inactive, false, false, .idle, [], [0, 1, 21, 0, 4, 2], 2, 0⟩, ⟨.inactive, true, false, .waiting, [], [0, 1, 20, 1, 6, 5], 2, 0⟩, [], []⟩),
  (1209322501191000133736528, ⟨⟨.inactive, false, false, .waiting, [], [0, 1, 22, 1, 4, 1], 2, 0⟩, ⟨.inactive, true, false, .idle, [], [0, 1, 20, 0, 6, 5], 2, 0⟩, [], []⟩),
  (1209322501192099641235536, ⟨⟨.inactive, false, false, .waiting, [], [0, 1, 22, 1, 4, 1], 2, 0⟩, ⟨.inactive, false, false, .waiting, [], [0, 1, 19, 1, 6, 5], 2, 0⟩, [], []⟩),
  (1209317889522573892393040, ⟨⟨.inactive, false, false, .waiting, [], [0, 1, 21, 1, 4, 2], 2, 0⟩, ⟨.inactive, true, false, .idle, [], [0, 1, 20, 0, 6, 5], 2, 0⟩, [], []⟩),
  (1209317889523673399892048, ⟨⟨.inactive, false, false, .waiting, [], [0, 1, 21, 1, 4, 2], 2, 0⟩, ⟨.inactive, false, false, .waiting, [], [0, 1, 19, 1, 6, 5], 2, 0⟩, [], []⟩),
  (396609536369107146832, ⟨⟨.inactive, false, false, .idle, [], [0, 1, 22, 0, 4, 2], 2, 0⟩, ⟨.inactive, true, false, .idle, [], [0, 1, 20, 0, 6, 5], 2, 0⟩, [], []⟩),
  (396609537468614645840, ⟨⟨.inactive, false, false, .idle, [], [0, 1, 22, 0, 4, 2], 2, 0⟩, ⟨.inactive, false, false, .waiting, [], [0, 1, 19, 1, 6, 5], 2, 0⟩, [], []⟩),
  (1209322501208592315586640, ⟨⟨.inactive, false, false, .waiting, [], [0, 1, 22, 1, 4, 2], 2, 0⟩, ⟨.inactive, false, false, .idle, [], [0, 1, 19, 0, 6, 5], 2, 0⟩, [], []⟩),
  (1209322501209691823085632, ⟨⟨.inactive, false, false, .waiting, [], [0, 1, 22, 1, 4, 2], 2, 0⟩, ⟨.inactive, false, false, .waiting, [], [0, 1, 18, 1, 6, 4], 2, 0⟩, [], []⟩),
  (401221239979716384848, ⟨⟨.inactive, false, false, .idle, [], [0, 1, 23, 0, 4, 3], 2, 0⟩, ⟨.inactive, false, false, .idle, [], [0, 1, 19, 0, 6, 5], 2, 0⟩, [], []⟩),
  (401221241079223883840, ⟨⟨.inactive, false, false, .idle, [], [0, 1, 23, 0, 4, 3], 2, 0⟩, ⟨.inactive, false, false, .waiting, [], [0, 1, 18, 1, 6, 4], 2, 0⟩, [], []⟩),
  (405832927097647077440, ⟨⟨.inactive, true, false, .idle, [], [0, 1, 24, 0, 4, 3], 2, 0⟩, ⟨.inactive, false, false, .waiting, [], [0, 1, 17, 1, 6, 4], 2, 0⟩, [], []⟩),
  (405832925998139578432, ⟨⟨.inactive, true, false, .idle, [], [0, 1, 24, 0, 4, 3], 2, 0⟩, ⟨.inactive, false, false, .idle, [], [0, 1, 18, 0, 6, 4], 2, 0⟩, [], []⟩),
  (410444612016562772032, ⟨⟨.inactive, true, false, .idle, [], [0, 1, 25, 0, 4, 3], 2, 0⟩, ⟨.inactive, false, false, .idle, [], [0, 1, 17, 0, 6, 4], 2, 0⟩, [], []⟩),
  (1209327112913302432323648, ⟨⟨.inactive, false, false, .waiting, [], [0, 1, 23, 1, 4, 3], 2, 0⟩, ⟨.inactive, false, false, .waiting, [], [0, 1, 17, 1, 6, 4], 2, 0⟩, [], []⟩),
  (1209327112912202924824640, ⟨⟨.inactive, false, false, .waiting, [], [0, 1, 23, 1, 4, 3], 2, 0⟩, ⟨.inactive, false, false, .idle, [], [0, 1, 18, 0, 6, 4], 2, 0⟩, [], []⟩),
  (1209331724598221348018240, ⟨⟨.inactive, true, false, .waiting, [], [0, 1, 24, 1, 4, 3], 2, 0⟩, ⟨.inactive, false, false, .idle, [], [0, 1, 17, 0, 6, 4], 2, 0⟩, [], []⟩)]

/-- The states after 66 steps. -/
def level66 : List (Nat × P) := [
  (1209322501174541840095312, ⟨⟨.inactive, false, false, .waiting, [], [0, 1, 22, 1, 4, 0], 2, 0⟩, ⟨.active, false, true, .waiting, [], [2, 1, 25, 1, 6, 5], 2, 1⟩, [], []⟩),
  (1209317889506115598751824, ⟨⟨.inactive, false, false, .waiting, [], [0, 1, 21, 1, 4, 1], 2, 0⟩, ⟨.active, false, true, .waiting, [], [2, 1, 25, 1, 6, 5], 2, 1⟩, [], []⟩),
  (1209317889487423901145168, ⟨⟨.inactive, false, false, .waiting, [], [0, 1, 21, 1, 4, 0], 2, 0⟩, ⟨.active, false, true, .idle, [], [2, 1, 25, 2, 6, 5], 2, 1⟩, [], []⟩),
  (396609501219115898960, ⟨⟨.inactive, false, false, .idle, [], [0, 1, 22, 0, 4, 0], 2, 0⟩, ⟨.active, false, true, .idle, [], [2, 1, 25, 2, 6, 5], 2, 1⟩, [], []⟩),
  (391997832792874555472, ⟨⟨.inactive, false, false, .idle, [], [0, 1, 21, 0, 4, 1], 2, 0⟩, ⟨.active, false, true, .idle, [], [2, 1, 25, 2, 6, 5], 2, 1⟩, [], []⟩),
  (1209322501173425148663888, ⟨⟨.inactive, false, false, .waiting, [], [0, 1, 22, 1, 4, 0], 2, 0⟩, ⟨.active, false, true, .idle, [], [1, 1, 25, 2, 6, 5], 2, 0⟩, [], []⟩),
  (1209317889504998907320400, ⟨⟨.inactive, false, false, .waiting, [], [0, 1, 21, 1, 4, 1], 2, 0⟩, ⟨.active, false, true, .idle, [], [1, 1, 25, 2, 6, 5], 2, 0⟩, [], []⟩),
  (1209322501173442324338768, ⟨⟨.inactive, false, false, .waiting, [], [0, 1, 22, 1, 4, 0], 2, 0⟩, ⟨.active, true, true, .idle, [], [2, 1, 24, 2, 6, 5], 2, 1⟩, [], []⟩),
  (1209322501175641351723088, ⟨⟨.inactive, false, false, .waiting, [], [0, 1, 22, 1, 4, 0], 2, 0⟩, ⟨.active, false, true, .woken, [], [2, 1, 25, 1, 6, 5], 2, 1⟩, [], []⟩),
  (1209317889505016082995280, ⟨⟨.inactive, false, false, .waiting, [], [0, 1, 21, 1, 4, 1], 2, 0⟩, ⟨.active, true, true, .idle, [], [2, 1, 24, 2, 6, 5], 2, 1⟩, [], []⟩),
  (1209317889507215110379600, ⟨⟨.inactive, false, false, .waiting, [], [0, 1, 21, 1, 4, 1], 2, 0⟩, ⟨.active, false, true, .woken, [], [2, 1, 25, 1, 6, 5], 2, 1⟩, [], []⟩),
  (396609519910813505616, ⟨⟨.inactive, false, false, .idle, [], [0, 1, 22, 0, 4, 1], 2, 0⟩, ⟨.active, false, true, .waiting, [], [2, 1, 25, 1, 6, 5], 2, 1⟩, [], []⟩),
  (391997851484572162128, ⟨⟨.inactive, false, false, .idle, [], [0, 1, 21, 0, 4, 2], 2, 0⟩, ⟨.active, false, true, .waiting, [], [2, 1, 25, 1, 6, 5], 2, 1⟩, [], []⟩),
  (1209322501192116846270544, ⟨⟨.inactive, false, false, .waiting, [], [0, 1, 22, 1, 4, 1], 2, 0⟩, ⟨.active, false, true, .waiting, [], [1, 1, 25, 1, 6, 5], 2, 0⟩, [], []⟩),
  (1209317889523690604927056, ⟨⟨.inactive, false, false, .waiting, [], [0, 1, 21, 1, 4, 2], 2, 0⟩, ⟨.active, false, true, .waiting, [], [1, 1, 25, 1, 6, 5], 2, 0⟩, [], []⟩),
  (1209322501192134021945424, ⟨⟨.inactive, false, false, .waiting, [], [0, 1, 22, 1, 4, 1], 2, 0⟩, ⟨.active, true, true, .waiting, [], [2, 1, 24, 1, 6, 5], 2, 1⟩, [], []⟩),
  (1209322501191034514446416, ⟨⟨.inactive, false, false, .waiting, [], [0, 1, 22, 1, 4, 1], 2, 0⟩, ⟨.active, false, true, .idle, [], [2, 1, 25, 0, 6, 5], 2, 1⟩, [], []⟩),
  (1209317889523707780601936, ⟨⟨.inactive, false, false, .waiting, [], [0, 1, 21, 1, 4, 2], 2, 0⟩, ⟨.active, true, true, .waiting, [], [2, 1, 24, 1, 6, 5], 2, 1⟩, [], []⟩),
  (1209317889522608273102928, ⟨⟨.inactive, false, false, .waiting, [], [0, 1, 21, 1, 4, 2], 2, 0⟩, ⟨.active, false, true, .idle, [], [2, 1, 25, 0, 6, 5], 2, 1⟩, [], []⟩),
  (396609518794122074192, ⟨⟨.inactive, false, false, .idle, [], [0, 1, 22, 0, 4, 1], 2, 0⟩, ⟨.active, false, true, .idle, [], [1, 1, 25, 2, 6, 5], 2, 0⟩, [], []⟩),
  (391997850367880730704, ⟨⟨.inactive, false, false, .idle, [], [0, 1, 21, 0, 4, 2], 2, 0⟩, ⟨.active, false, true, .idle, [], [1, 1, 25, 2, 6, 5], 2, 0⟩, [], []⟩),
  (396609518811297749072, ⟨⟨.inactive, false, false, .idle, [], [0, 1, 22, 0, 4, 1], 2, 0⟩, ⟨.active, true, true, .idle, [], [2, 1, 24, 2, 6, 5], 2, 1⟩, [], []⟩),
  (396609521010325133392, ⟨⟨.inactive, false, false, .idle, [], [0, 1, 22, 0, 4, 1], 2, 0⟩, ⟨.active, false, true, .woken, [], [2, 1, 25, 1, 6, 5], 2, 1⟩, [], []⟩),
  (391997850385056405584, ⟨⟨.inactive, false, false, .idle, [], [0, 1, 21, 0, 4, 2], 2, 0⟩, ⟨.active, true, true, .idle, [], [2, 1, 24, 2, 6, 5], 2, 1⟩, [], []⟩),
  (391997852584083789904, ⟨⟨.inactive, false, false, .idle, [], [0, 1, 21, 0, 4, 2], 2, 0⟩, ⟨.active, false, true, .woken, [], [2, 1, 25, 1, 6, 5], 2, 1⟩, [], []⟩),
  (1209322501191017330514000, ⟨⟨.inactive, false, false, .waiting, [], [0, 1, 22, 1, 4, 1], 2, 0⟩, ⟨.active, true, true, .idle, [], [1, 1, 24, 2, 6, 5], 2, 0⟩, [], []⟩),
  (1209322501193216357898320, ⟨⟨.inactive, false, false, .waiting, [], [0, 1, 22, 1, 4, 1], 2, 0⟩, ⟨.active, false, true, .woken, [], [1, 1, 25, 1, 6, 5], 2, 0⟩, [], []⟩),
  (1209322501193233533573200, ⟨⟨.inactive, false, false, .waiting, [], [0, 1, 22, 1, 4, 1], 2, 0⟩, ⟨.active, true, true, .woken, [], [2, 1, 24, 1, 6, 5], 2, 1⟩, [], []⟩),
  (1209317889522591089170512, ⟨⟨.inactive, false, false, .waiting, [], [0, 1, 21, 1, 4, 2], 2, 0⟩, ⟨.active, true, true, .idle, [], [1, 1, 24, 2, 6, 5], 2, 0⟩, [], []⟩),
  (1209317889524790116554832, ⟨⟨.inactive, false, false, .waiting, [], [0, 1, 21, 1, 4, 2], 2, 0⟩, ⟨.active, false, true, .woken, [], [1, 1, 25, 1, 6, 5], 2, 0⟩, [], []⟩),
  (1209317889524807292229712, ⟨⟨.inactive, false, false, .waiting, [], [0, 1, 21, 1, 4, 2], 2, 0⟩, ⟨.active, true, true, .woken, [], [2, 1, 24, 1, 6, 5], 2, 1⟩, [], []⟩),
  (396609537485819680848, ⟨⟨.inactive, false, false, .idle, [], [0, 1, 22, 0, 4, 2], 2, 0⟩, ⟨.active, false, true, .waiting, [], [1, 1, 25, 1, 6, 5], 2, 0⟩, [], []⟩),
  (396609537502995355728, ⟨⟨.inactive, false, false, .idle, [], [0, 1, 22, 0, 4, 2], 2, 0⟩, ⟨.active, true, true, .waiting, [], [2, 1, 24, 1, 6, 5], 2, 1⟩, [], []⟩),
  (396609536403487856720, ⟨⟨.inactive, false, false, .idle, [], [0, 1, 22, 0, 4, 2], 2, 0⟩, ⟨.active, false, true, .idle, [], [2, 1, 25, 0, 6, 5], 2, 1⟩, [], []⟩),
  (1209322501209709028120656, ⟨⟨.inactive, false, false, .waiting, [], [0, 1, 22, 1, 4, 2], 2, 0⟩, ⟨.active, true, true, .waiting, [], [1, 1, 24, 1, 6, 5], 2, 0⟩, [], []⟩),
  (1209322501208609520621648, ⟨⟨.inactive, false, false, .waiting, [], [0, 1, 22, 1, 4, 2], 2, 0⟩, ⟨.active, false, true, .idle, [], [1, 1, 25, 0, 6, 5], 2, 0⟩, [], []⟩),
  (1209322501208626696296528, ⟨⟨.inactive, false, false, .waiting, [], [0, 1, 22, 1, 4, 2], 2, 0⟩, ⟨.active, true, true, .idle, [], [2, 1, 24, 0, 6, 5], 2, 1⟩, [], []⟩),
  (396609536386303924304, ⟨⟨.inactive, false, false, .idle, [], [0, 1, 22, 0, 4, 2], 2, 0⟩, ⟨.active, true, true, .idle, [], [1, 1, 24, 2, 6, 5], 2, 0⟩, [], []⟩),
  (396609538585331308624, ⟨⟨.inactive, false, false, .idle, [], [0, 1, 22, 0, 4, 2], 2, 0⟩, ⟨.active, false, true, .woken, [], [1, 1, 25, 1, 6, 5], 2, 0⟩, [], []⟩),
  (396609538602506983504, ⟨⟨.inactive, false, false, .idle, [], [0, 1, 22, 0, 4, 2], 2, 0⟩, ⟨.active, true, true, .woken, [], [2, 1, 24, 1, 6, 5], 2, 1⟩, [], []⟩),
  (1209322501210808539748432, ⟨⟨.inactive, false, false, .waiting, [], [0, 1, 22, 1, 4, 2], 2, 0⟩, ⟨.active, true, true, .woken, [], [1, 1, 24, 1, 6, 5], 2, 0⟩, [], []⟩),
  (1209322501209726203795536, ⟨⟨.inactive, false, false, .waiting, [], [0, 1, 22, 1, 4, 2], 2, 0⟩, ⟨.active, true, true, .waiting, [], [2, 1, 23, 1, 6, 5], 2, 1⟩, [], []⟩),
  (401221241096428918864, ⟨⟨.inactive, false, false, .idle, [], [0, 1, 23, 0, 4, 3], 2, 0⟩, ⟨.active, true, true, .waiting, [], [1, 1, 24, 1, 6, 5], 2, 0⟩, [], []⟩),
  (401221239996921419856, ⟨⟨.inactive, false, false, .idle, [], [0, 1, 23, 0, 4, 3], 2, 0⟩, ⟨.active, false, true, .idle, [], [1, 1, 25, 0, 6, 5], 2, 0⟩, [], []⟩),
  (401221240014097094736, ⟨⟨.inactive, false, false, .idle, [], [0, 1, 23, 0, 4, 3], 2, 0⟩, ⟨.active, true, true, .idle, [], [2, 1, 24, 0, 6, 5], 2, 1⟩, [], []⟩),
  (1209327112912220129859664, ⟨⟨.inactive, false, false, .waiting, [], [0, 1, 23, 1, 4, 3], 2, 0⟩, ⟨.active, true, true, .idle, [], [1, 1, 24, 0, 6, 5], 2, 0⟩, [], []⟩),
  (1209327112912237305534544, ⟨⟨.inactive, false, false, .waiting, [], [0, 1, 23, 1, 4, 3], 2, 0⟩, ⟨.active, true, true, .idle, [], [2, 1, 23, 0, 6, 5], 2, 1⟩, [], []⟩),
  (401221242195940546640, ⟨⟨.inactive, false, false, .idle, [], [0, 1, 23, 0, 4, 3], 2, 0⟩, ⟨.active, true, true, .woken, [], [1, 1, 24, 1, 6, 5], 2, 0⟩, [], []⟩),
  (401221241113604593744, ⟨⟨.inactive, false, false, .idle, [], [0, 1, 23, 0, 4, 3], 2, 0⟩, ⟨.active, true, true, .waiting, [], [2, 1, 23, 1, 6, 5], 2, 1⟩, [], []⟩),
  (1209327112913319637358672, ⟨⟨.inactive, false, false, .waiting, [], [0, 1, 23, 1, 4, 3], 2, 0⟩, ⟨.active, true, true, .waiting, [], [1, 1, 23, 1, 6, 5], 2, 0⟩, [], []⟩),
  (405832926015344613456, ⟨⟨.inactive, true, false, .idle, [], [0, 1, 24, 0, 4, 3], 2, 0⟩, ⟨.active, true, true, .idle, [], [1, 1, 24, 0, 6, 5], 2, 0⟩, [], []⟩),
  (405832926032520288336, ⟨⟨.inactive, true, false, .idle, [], [0, 1, 24, 0, 4, 3], 2, 0⟩, ⟨.active, true, true, .idle, [], [2, 1, 23, 0, 6, 5], 2, 1⟩, [], []⟩),
  (405832927114852112464, ⟨⟨.inactive, true, false, .idle, [], [0, 1, 24, 0, 4, 3], 2, 0⟩, ⟨.active, true, true, .waiting, [], [1, 1, 23, 1, 6, 5], 2, 0⟩, [], []⟩),
  (1209331724598238553053264, ⟨⟨.inactive, true, false, .waiting, [], [0, 1, 24, 1, 4, 3], 2, 0⟩, ⟨.active, true, true, .idle, [], [1, 1, 23, 0, 6, 5], 2, 0⟩, [], []⟩),
  (1209331724599320880683088, ⟨⟨.inactive, true, false, .waiting, [], [0, 1, 24, 1, 4, 3], 2, 0⟩, ⟨.active, true, false, .waiting, [], [0, 1, 22, 1, 6, 5], 2, 0⟩, [], []⟩),
  (410444612033767807056, ⟨⟨.inactive, true, false, .idle, [], [0, 1, 25, 0, 4, 3], 2, 0⟩, ⟨.active, true, true, .idle, [], [1, 1, 23, 0, 6, 5], 2, 0⟩, [], []⟩),
  (410444613116095436880, ⟨⟨.inactive, true, false, .idle, [], [0, 1, 25, 0, 4, 3], 2, 0⟩, ⟨.active, true, false, .waiting, [], [0, 1, 22, 1, 6, 5], 2, 0⟩, [], []⟩),
  (1209336336284239796377680, ⟨⟨.inactive, true, false, .waiting, [], [0, 1, 25, 1, 4, 3], 2, 0⟩, ⟨.active, true, false, .idle, [], [0, 1, 22, 0, 6, 5], 2, 0⟩, [], []⟩),
  (1209336336285339303876688, ⟨⟨.inactive, true, false, .waiting, [], [0, 1, 25, 1, 4, 3], 2, 0⟩, ⟨.inactive, true, false, .waiting, [], [0, 1, 21, 1, 6, 5], 2, 0⟩, [], []⟩),
  (415056298035011131472, ⟨⟨.active, true, false, .idle, [], [0, 1, 26, 0, 4, 3], 2, 0⟩, ⟨.active, true, false, .idle, [], [0, 1, 22, 0, 6, 5], 2, 0⟩, [], []⟩),
  (415056299134518630480, ⟨⟨.active, true, false, .idle, [], [0, 1, 26, 0, 4, 3], 2, 0⟩, ⟨.inactive, true, false, .waiting, [], [0, 1, 21, 1, 6, 5], 2, 0⟩, [], []⟩),
  (19309133915532015179856, ⟨⟨.active, true, true, .idle, [], [1, 1, 27, 0, 4, 3], 2, 0⟩, ⟨.inactive, true, false, .idle, [], [0, 1, 21, 0, 6, 5], 2, 0⟩, [], []⟩),
  (1209340947970258219571280, ⟨⟨.active, true, false, .waiting, [], [0, 1, 26, 1, 4, 3], 2, 0⟩, ⟨.inactive, true, false, .idle, [], [0, 1, 21, 0, 6, 5], 2, 0⟩, [], []⟩),
  (19309133916631522678864, ⟨⟨.active, true, true, .idle, [], [1, 1, 27, 0, 4, 3], 2, 0⟩, ⟨.inactive, true, false, .waiting, [], [0, 1, 20, 1, 6, 5], 2, 0⟩, [], []⟩),
  (1209340947971357727070288, ⟨⟨.active, true, false, .waiting, [], [0, 1, 26, 1, 4, 3], 2, 0⟩, ⟨.inactive, true, false, .waiting, [], [0, 1, 20, 1, 6, 5], 2, 0⟩, [], []⟩),
  (38198599847010591840336, ⟨⟨.active, true, true, .idle, [], [2, 1, 27, 0, 4, 3], 2, 1⟩, ⟨.inactive, true, false, .idle, [], [0, 1, 20, 0, 6, 5], 2, 0⟩, [], []⟩),
  (19313745601550438373456, ⟨⟨.active, true, true, .idle, [], [1, 1, 28, 0, 4, 3], 2, 0⟩, ⟨.inactive, true, false, .idle, [], [0, 1, 20, 0, 6, 5], 2, 0⟩, [], []⟩),
  (1228235025587755223619664, ⟨⟨.active, true, true, .waiting, [], [1, 1, 27, 1, 4, 3], 2, 0⟩, ⟨.inactive, true, false, .idle, [], [0, 1, 20, 0, 6, 5], 2, 0⟩, [], []⟩),
  (38198599848110099339344, ⟨⟨.active, true, true, .idle, [], [2, 1, 27, 0, 4, 3], 2, 1⟩, ⟨.inactive, false, false, .waiting, [], [0, 1, 19, 1, 6, 5], 2, 0⟩, [], []⟩),
  (19313745602649945872464, ⟨⟨.active, true, true, .idle, [], [1, 1, 28, 0, 4, 3], 2, 0⟩, ⟨.inactive, false, false, .waiting, [], [0, 1, 19, 1, 6, 5], 2, 0⟩, [], []⟩),
  (1228235025588854731118672, ⟨⟨.active, true, true, .waiting, [], [1, 1, 27, 1, 4, 3], 2, 0⟩, ⟨.inactive, false, false, .waiting, [], [0, 1, 19, 1, 6, 5], 2, 0⟩, [], []⟩),
  (38203211533029015033936, ⟨⟨.active, true, true, .idle, [], [2, 1, 28, 0, 4, 3], 2, 1⟩, ⟨.inactive, false, false, .idle, [], [0, 1, 19, 0, 6, 5], 2, 0⟩, [], []⟩),
  (38203211534128522532928, ⟨⟨.active, true, true, .idle, [], [2, 1, 28, 0, 4, 3], 2, 1⟩, ⟨.inactive, false, false, .waiting, [], [0, 1, 18, 1, 6, 4], 2, 0⟩, [], []⟩),
  (1247124491519233800280144, ⟨⟨.active, true, true, .waiting, [], [2, 1, 27, 1, 4, 3], 2, 1⟩, ⟨.inactive, false, false, .idle, [], [0, 1, 19, 0, 6, 5], 2, 0⟩, [], []⟩),
  (1247124491520333307779136, ⟨⟨.active, true, true, .waiting, [], [2, 1, 27, 1, 4, 3], 2, 1⟩, ⟨.inactive, false, false, .waiting, [], [0, 1, 18, 1, 6, 4], 2, 0⟩, [], []⟩),
  (19318357287568861567056, ⟨⟨.active, false, true, .idle, [], [1, 1, 29, 0, 4, 3], 2, 0⟩, ⟨.inactive, false, false, .idle, [], [0, 1, 19, 0, 6, 5], 2, 0⟩, [], []⟩),
  (19318357288668369066048, ⟨⟨.active, false, true, .idle, [], [1, 1, 29, 0, 4, 3], 2, 0⟩, ⟨.inactive, false, false, .waiting, [], [0, 1, 18, 1, 6, 4], 2, 0⟩, [], []⟩),
  (1228239637273773646813264, ⟨⟨.active, true, true, .waiting, [], [1, 1, 28, 1, 4, 3], 2, 0⟩, ⟨.inactive, false, false, .idle, [], [0, 1, 19, 0, 6, 5], 2, 0⟩, [], []⟩),
  (1228239637274873154312256, ⟨⟨.active, true, true, .waiting, [], [1, 1, 28, 1, 4, 3], 2, 0⟩, ⟨.inactive, false, false, .waiting, [], [0, 1, 18, 1, 6, 4], 2, 0⟩, [], []⟩),
  (1247129103206351730972736, ⟨⟨.active, true, true, .waiting, [], [2, 1, 28, 1, 4, 3], 2, 1⟩, ⟨.inactive, false, false, .waiting, [], [0, 1, 17, 1, 6, 4], 2, 0⟩, [], []⟩),
  (1247129103205252223473728, ⟨⟨.active, true, true, .waiting, [], [2, 1, 28, 1, 4, 3], 2, 1⟩, ⟨.inactive, false, false, .idle, [], [0, 1, 18, 0, 6, 4], 2, 0⟩, [], []⟩),
  (1228244248960891577505856, ⟨⟨.active, false, true, .waiting, [], [1, 1, 29, 1, 4, 3], 2, 0⟩, ⟨.inactive, false, false, .waiting, [], [0, 1, 17, 1, 6, 4], 2, 0⟩, [], []⟩),
  (1228244248959792070006848, ⟨⟨.active, false, true, .waiting, [], [1, 1, 29, 1, 4, 3], 2, 0⟩, ⟨.inactive, false, false, .idle, [], [0, 1, 18, 0, 6, 4], 2, 0⟩, [], []⟩),
  (38207823220146945726528, ⟨⟨.active, false, true, .idle, [], [2, 1, 29, 0, 4, 3], 2, 1⟩, ⟨.inactive, false, false, .waiting, [], [0, 1, 17, 1, 6, 4], 2, 0⟩, [], []⟩),
  (38207823219047438227520, ⟨⟨.active, false, true, .idle, [], [2, 1, 29, 0, 4, 3], 2, 1⟩, ⟨.inactive, false, false, .idle, [], [0, 1, 18, 0, 6, 4], 2, 0⟩, [], []⟩),
  (1247133714891270646667328, ⟨⟨.active, false, true, .waiting, [], [2, 1, 29, 1, 4, 3], 2, 1⟩, ⟨.inactive, false, false, .idle, [], [0, 1, 17, 0, 6, 4], 2, 0⟩, [], []⟩),
  (2437165456888402821519440, ⟨⟨.active, true, true, .woken, [], [1, 1, 28, 1, 4, 3], 2, 0⟩, ⟨.inactive, false, false, .idle, [], [0, 1, 19, 0, 6, 5], 2, 0⟩, [], []⟩),
  (2437165456889502329018432, ⟨⟨.active, true, true, .woken, [], [1, 1, 28, 1, 4, 3], 2, 0⟩, ⟨.inactive, false, false, .waiting, [], [0, 1, 18, 1, 6, 4], 2, 0⟩, [], []⟩),
  (2456054922820980905678912, ⟨⟨.active, true, true, .woken, [], [2, 1, 28, 1, 4, 3], 2, 1⟩, ⟨.inactive, false, false, .waiting, [], [0, 1, 17, 1, 6, 4], 2, 0⟩, [], []⟩),
  (2456054922819881398179904, ⟨⟨.active, true, true, .woken, [], [2, 1, 28, 1, 4, 3], 2, 1⟩, ⟨.inactive, false, false, .idle, [], [0, 1, 18, 0, 6, 4], 2, 0⟩, [], []⟩),
  (2437170068575520752212032, ⟨⟨.active, false, true, .woken, [], [1, 1, 29, 1, 4, 3], 2, 0⟩, ⟨.inactive, false, false, .waiting, [], [0, 1, 17, 1, 6, 4], 2, 0⟩, [], []⟩),
  (2437170068574421244713024, ⟨⟨.active, false, true, .woken, [], [1, 1, 29, 1, 4, 3], 2, 0⟩, ⟨.inactive, false, false, .idle, [], [0, 1, 18, 0, 6, 4], 2, 0⟩, [], []⟩),
  (2456059534505899821373504, ⟨⟨.active, false, true, .woken, [], [2, 1, 29, 1, 4, 3], 2, 1⟩, ⟨.inactive, false, false, .idle, [], [0, 1, 17, 0, 6, 4], 2, 0⟩, [], []⟩),
  (19313889717838013339712, ⟨⟨.active, true, true, .idle, [], [1, 1, 28, 2, 4, 3], 2, 0⟩, ⟨.inactive, false, false, .waiting, [], [0, 1, 17, 1, 6, 4], 2, 0⟩, [], []⟩),
  (19313889716738505840704, ⟨⟨.active, true, true, .idle, [], [1, 1, 28, 2, 4, 3], 2, 0⟩, ⟨.inactive, false, false, .idle, [], [0, 1, 18, 0, 6, 4], 2, 0⟩, [], []⟩),
  (19318501402756929034304, ⟨⟨.active, false, true, .idle, [], [1, 1, 29, 2, 4, 3], 2, 0⟩, ⟨.inactive, false, false, .idle, [], [0, 1, 17, 0, 6, 4], 2, 0⟩, [], []⟩),
  (38203355648217082501184, ⟨⟨.active, true, true, .idle, [], [2, 1, 28, 2, 4, 3], 2, 1⟩, ⟨.inactive, false, false, .idle, [], [0, 1, 17, 0, 6, 4], 2, 0⟩, [], []⟩)]

/-- The states after 71 steps. -/
def level71 : List (Nat × P) := [
  (38207967335335034165328, ⟨⟨.active, false, true, .idle, [], [2, 1, 29, 2, 4, 3], 2, 1⟩, ⟨.inactive, true, false, .waiting, [], [0, 1, 20, 1, 6, 5], 2, 0⟩, [], []⟩),
  (38207967334235526666320, ⟨⟨.active, false, true, .idle, [], [2, 1, 29, 2, 4, 3], 2, 1⟩, ⟨.inactive, true, false, .idle, [], [0, 1, 21, 0, 6, 5], 2, 0⟩, [], []⟩),
  (19318501403856457504848, ⟨⟨.active, false, true, .idle, [], [1, 1, 29, 2, 4, 3], 2, 0⟩, ⟨.inactive, true, false, .waiting, [], [0, 1, 21, 1, 6, 5], 2, 0⟩, [], []⟩),
  (38203355649316610971728, ⟨⟨.active, true, true, .idle, [], [2, 1, 28, 2, 4, 3], 2, 1⟩, ⟨.inactive, true, false, .waiting, [], [0, 1, 21, 1, 6, 5], 2, 0⟩, [], []⟩),
  (2456059534506999349844048, ⟨⟨.active, false, true, .woken, [], [2, 1, 29, 1, 4, 3], 2, 1⟩, ⟨.inactive, true, false, .waiting, [], [0, 1, 21, 1, 6, 5], 2, 0⟩, [], []⟩),
  (1247133714892370175137872, ⟨⟨.active, false, true, .waiting, [], [2, 1, 29, 1, 4, 3], 2, 1⟩, ⟨.inactive, true, false, .waiting, [], [0, 1, 21, 1, 6, 5], 2, 0⟩, [], []⟩),
  (19318501402756950005840, ⟨⟨.active, false, true, .idle, [], [1, 1, 29, 2, 4, 3], 2, 0⟩, ⟨.active, true, false, .idle, [], [0, 1, 22, 0, 6, 5], 2, 0⟩, [], []⟩),
  (38203355648217103472720, ⟨⟨.active, true, true, .idle, [], [2, 1, 28, 2, 4, 3], 2, 1⟩, ⟨.active, true, false, .idle, [], [0, 1, 22, 0, 6, 5], 2, 0⟩, [], []⟩),
  (2456059534505899842345040, ⟨⟨.active, false, true, .woken, [], [2, 1, 29, 1, 4, 3], 2, 1⟩, ⟨.active, true, false, .idle, [], [0, 1, 22, 0, 6, 5], 2, 0⟩, [], []⟩),
  (1247133714891270667638864, ⟨⟨.active, false, true, .waiting, [], [2, 1, 29, 1, 4, 3], 2, 1⟩, ⟨.active, true, false, .idle, [], [0, 1, 22, 0, 6, 5], 2, 0⟩, [], []⟩),
  (19313889717838034311248, ⟨⟨.active, true, true, .idle, [], [1, 1, 28, 2, 4, 3], 2, 0⟩, ⟨.active, true, false, .waiting, [], [0, 1, 22, 1, 6, 5], 2, 0⟩, [], []⟩),
  (2437170068575520773183568, ⟨⟨.active, false, true, .woken, [], [1, 1, 29, 1, 4, 3], 2, 0⟩, ⟨.active, true, false, .waiting, [], [0, 1, 22, 1, 6, 5], 2, 0⟩, [], []⟩),
  (1228244248960891598477392, ⟨⟨.active, false, true, .waiting, [], [1, 1, 29, 1, 4, 3], 2, 0⟩, ⟨.active, true, false, .waiting, [], [0, 1, 22, 1, 6, 5], 2, 0⟩, [], []⟩),
  (2456054922820980926650448, ⟨⟨.active, true, true, .woken, [], [2, 1, 28, 1, 4, 3], 2, 1⟩, ⟨.active, true, false, .waiting, [], [0, 1, 22, 1, 6, 5], 2, 0⟩, [], []⟩),
  (1247129103206351751944272, ⟨⟨.active, true, true, .waiting, [], [2, 1, 28, 1, 4, 3], 2, 1⟩, ⟨.active, true, false, .waiting, [], [0, 1, 22, 1, 6, 5], 2, 0⟩, [], []⟩),
  (38207823220146966698064, ⟨⟨.active, false, true, .idle, [], [2, 1, 29, 0, 4, 3], 2, 1⟩, ⟨.active, true, false, .waiting, [], [0, 1, 22, 1, 6, 5], 2, 0⟩, [], []⟩),
  (19313889716755706681424, ⟨⟨.active, true, true, .idle, [], [1, 1, 28, 2, 4, 3], 2, 0⟩, ⟨.active, true, true, .idle, [], [1, 1, 23, 0, 6, 5], 2, 0⟩, [], []⟩),
  (2437170068574438445553744, ⟨⟨.active, false, true, .woken, [], [1, 1, 29, 1, 4, 3], 2, 0⟩, ⟨.active, true, true, .idle, [], [1, 1, 23, 0, 6, 5], 2, 0⟩, [], []⟩),
  (1228244248959809270847568, ⟨⟨.active, false, true, .waiting, [], [1, 1, 29, 1, 4, 3], 2, 0⟩, ⟨.active, true, true, .idle, [], [1, 1, 23, 0, 6, 5], 2, 0⟩, [], []⟩),
  (2456054922819898599020624, ⟨⟨.active, true, true, .woken, [], [2, 1, 28, 1, 4, 3], 2, 1⟩, ⟨.active, true, true, .idle, [], [1, 1, 23, 0, 6, 5], 2, 0⟩, [], []⟩),
  (1247129103205269424314448, ⟨⟨.active, true, true, .waiting, [], [2, 1, 28, 1, 4, 3], 2, 1⟩, ⟨.active, true, true, .idle, [], [1, 1, 23, 0, 6, 5], 2, 0⟩, [], []⟩),
  (38207823219064639068240, ⟨⟨.active, false, true, .idle, [], [2, 1, 29, 0, 4, 3], 2, 1⟩, ⟨.active, true, true, .idle, [], [1, 1, 23, 0, 6, 5], 2, 0⟩, [], []⟩),
  (1228239637274890355152976, ⟨⟨.active, true, true, .waiting, [], [1, 1, 28, 1, 4, 3], 2, 0⟩, ⟨.active, true, true, .waiting, [], [1, 1, 23, 1, 6, 5], 2, 0⟩, [], []⟩),
  (19318357288685569906768, ⟨⟨.active, false, true, .idle, [], [1, 1, 29, 0, 4, 3], 2, 0⟩, ⟨.active, true, true, .waiting, [], [1, 1, 23, 1, 6, 5], 2, 0⟩, [], []⟩),
  (38203211534145723373648, ⟨⟨.active, true, true, .idle, [], [2, 1, 28, 0, 4, 3], 2, 1⟩, ⟨.active, true, true, .waiting, [], [1, 1, 23, 1, 6, 5], 2, 0⟩, [], []⟩),
  (1228239637273808023328848, ⟨⟨.active, true, true, .waiting, [], [1, 1, 28, 1, 4, 3], 2, 0⟩, ⟨.active, true, true, .idle, [], [2, 1, 23, 0, 6, 5], 2, 1⟩, [], []⟩),
  (19318357287603238082640, ⟨⟨.active, false, true, .idle, [], [1, 1, 29, 0, 4, 3], 2, 0⟩, ⟨.active, true, true, .idle, [], [2, 1, 23, 0, 6, 5], 2, 1⟩, [], []⟩),
  (1228239637273790847653968, ⟨⟨.active, true, true, .waiting, [], [1, 1, 28, 1, 4, 3], 2, 0⟩, ⟨.active, true, true, .idle, [], [1, 1, 24, 0, 6, 5], 2, 0⟩, [], []⟩),
  (19318357287586062407760, ⟨⟨.active, false, true, .idle, [], [1, 1, 29, 0, 4, 3], 2, 0⟩, ⟨.active, true, true, .idle, [], [1, 1, 24, 0, 6, 5], 2, 0⟩, [], []⟩),
  (38203211533063391549520, ⟨⟨.active, true, true, .idle, [], [2, 1, 28, 0, 4, 3], 2, 1⟩, ⟨.active, true, true, .idle, [], [2, 1, 23, 0, 6, 5], 2, 1⟩, [], []⟩),
  (38203211533046215874640, ⟨⟨.active, true, true, .idle, [], [2, 1, 28, 0, 4, 3], 2, 1⟩, ⟨.active, true, true, .idle, [], [1, 1, 24, 0, 6, 5], 2, 0⟩, [], []⟩),
  (2437165456889519529859152, ⟨⟨.active, true, true, .woken, [], [1, 1, 28, 1, 4, 3], 2, 0⟩, ⟨.active, true, true, .waiting, [], [1, 1, 23, 1, 6, 5], 2, 0⟩, [], []⟩),
  (1247124491520350508619856, ⟨⟨.active, true, true, .waiting, [], [2, 1, 27, 1, 4, 3], 2, 1⟩, ⟨.active, true, true, .waiting, [], [1, 1, 23, 1, 6, 5], 2, 0⟩, [], []⟩),
  (2437165456888437198035024, ⟨⟨.active, true, true, .woken, [], [1, 1, 28, 1, 4, 3], 2, 0⟩, ⟨.active, true, true, .idle, [], [2, 1, 23, 0, 6, 5], 2, 1⟩, [], []⟩),
  (1247124491519268176795728, ⟨⟨.active, true, true, .waiting, [], [2, 1, 27, 1, 4, 3], 2, 1⟩, ⟨.active, true, true, .idle, [], [2, 1, 23, 0, 6, 5], 2, 1⟩, [], []⟩),
  (2437165456888420022360144, ⟨⟨.active, true, true, .woken, [], [1, 1, 28, 1, 4, 3], 2, 0⟩, ⟨.active, true, true, .idle, [], [1, 1, 24, 0, 6, 5], 2, 0⟩, [], []⟩),
  (1247124491519251001120848, ⟨⟨.active, true, true, .waiting, [], [2, 1, 27, 1, 4, 3], 2, 1⟩, ⟨.active, true, true, .idle, [], [1, 1, 24, 0, 6, 5], 2, 0⟩, [], []⟩),
  (19313745602684322388048, ⟨⟨.active, true, true, .idle, [], [1, 1, 28, 0, 4, 3], 2, 0⟩, ⟨.active, true, true, .waiting, [], [2, 1, 23, 1, 6, 5], 2, 1⟩, [], []⟩),
  (38198599848144475854928, ⟨⟨.active, true, true, .idle, [], [2, 1, 27, 0, 4, 3], 2, 1⟩, ⟨.active, true, true, .waiting, [], [2, 1, 23, 1, 6, 5], 2, 1⟩, [], []⟩),
  (19313745603766658340944, ⟨⟨.active, true, true, .idle, [], [1, 1, 28, 0, 4, 3], 2, 0⟩, ⟨.active, true, true, .woken, [], [1, 1, 24, 1, 6, 5], 2, 0⟩, [], []⟩),
  (38198599849226811807824, ⟨⟨.active, true, true, .idle, [], [2, 1, 27, 0, 4, 3], 2, 1⟩, ⟨.active, true, true, .woken, [], [1, 1, 24, 1, 6, 5], 2, 0⟩, [], []⟩),
  (19313745601584814889040, ⟨⟨.active, true, true, .idle, [], [1, 1, 28, 0, 4, 3], 2, 0⟩, ⟨.active, true, true, .idle, [], [2, 1, 24, 0, 6, 5], 2, 1⟩, [], []⟩),
  (38198599847044968355920, ⟨⟨.active, true, true, .idle, [], [2, 1, 27, 0, 4, 3], 2, 1⟩, ⟨.active, true, true, .idle, [], [2, 1, 24, 0, 6, 5], 2, 1⟩, [], []⟩),
  (19313745601567639214160, ⟨⟨.active, true, true, .idle, [], [1, 1, 28, 0, 4, 3], 2, 0⟩, ⟨.active, false, true, .idle, [], [1, 1, 25, 0, 6, 5], 2, 0⟩, [], []⟩),
  (38198599847027792681040, ⟨⟨.active, true, true, .idle, [], [2, 1, 27, 0, 4, 3], 2, 1⟩, ⟨.active, false, true, .idle, [], [1, 1, 25, 0, 6, 5], 2, 0⟩, [], []⟩),
  (19313745602667146713168, ⟨⟨.active, true, true, .idle, [], [1, 1, 28, 0, 4, 3], 2, 0⟩, ⟨.active, true, true, .waiting, [], [1, 1, 24, 1, 6, 5], 2, 0⟩, [], []⟩),
  (38198599848127300180048, ⟨⟨.active, true, true, .idle, [], [2, 1, 27, 0, 4, 3], 2, 1⟩, ⟨.active, true, true, .waiting, [], [1, 1, 24, 1, 6, 5], 2, 0⟩, [], []⟩),
  (1228235025588889107634256, ⟨⟨.active, true, true, .waiting, [], [1, 1, 27, 1, 4, 3], 2, 0⟩, ⟨.active, true, true, .waiting, [], [2, 1, 23, 1, 6, 5], 2, 1⟩, [], []⟩),
  (1228235025589971443587152, ⟨⟨.active, true, true, .waiting, [], [1, 1, 27, 1, 4, 3], 2, 0⟩, ⟨.active, true, true, .woken, [], [1, 1, 24, 1, 6, 5], 2, 0⟩, [], []⟩),
  (1228235025587789600135248, ⟨⟨.active, true, true, .waiting, [], [1, 1, 27, 1, 4, 3], 2, 0⟩, ⟨.active, true, true, .idle, [], [2, 1, 24, 0, 6, 5], 2, 1⟩, [], []⟩),
  (1228235025587772424460368, ⟨⟨.active, true, true, .waiting, [], [1, 1, 27, 1, 4, 3], 2, 0⟩, ⟨.active, false, true, .idle, [], [1, 1, 25, 0, 6, 5], 2, 0⟩, [], []⟩),
  (1228235025588871931959376, ⟨⟨.active, true, true, .waiting, [], [1, 1, 27, 1, 4, 3], 2, 0⟩, ⟨.active, true, true, .waiting, [], [1, 1, 24, 1, 6, 5], 2, 0⟩, [], []⟩),
  (19309133917765410822224, ⟨⟨.active, true, true, .idle, [], [1, 1, 27, 0, 4, 3], 2, 0⟩, ⟨.active, true, true, .woken, [], [2, 1, 24, 1, 6, 5], 2, 1⟩, [], []⟩),
  (19309133917748235147344, ⟨⟨.active, true, true, .idle, [], [1, 1, 27, 0, 4, 3], 2, 0⟩, ⟨.active, false, true, .woken, [], [1, 1, 25, 1, 6, 5], 2, 0⟩, [], []⟩),
  (19309133915549207763024, ⟨⟨.active, true, true, .idle, [], [1, 1, 27, 0, 4, 3], 2, 0⟩, ⟨.active, true, true, .idle, [], [1, 1, 24, 2, 6, 5], 2, 0⟩, [], []⟩),
  (19309133915566391695440, ⟨⟨.active, true, true, .idle, [], [1, 1, 27, 0, 4, 3], 2, 0⟩, ⟨.active, false, true, .idle, [], [2, 1, 25, 0, 6, 5], 2, 1⟩, [], []⟩),
  (19309133916665899194448, ⟨⟨.active, true, true, .idle, [], [1, 1, 27, 0, 4, 3], 2, 0⟩, ⟨.active, true, true, .waiting, [], [2, 1, 24, 1, 6, 5], 2, 1⟩, [], []⟩),
  (19309133916648723519568, ⟨⟨.active, true, true, .idle, [], [1, 1, 27, 0, 4, 3], 2, 0⟩, ⟨.active, false, true, .waiting, [], [1, 1, 25, 1, 6, 5], 2, 0⟩, [], []⟩),
  (1209340947972491615213648, ⟨⟨.active, true, false, .waiting, [], [0, 1, 26, 1, 4, 3], 2, 0⟩, ⟨.active, true, true, .woken, [], [2, 1, 24, 1, 6, 5], 2, 1⟩, [], []⟩),
  (1209340947972474439538768, ⟨⟨.active, true, false, .waiting, [], [0, 1, 26, 1, 4, 3], 2, 0⟩, ⟨.active, false, true, .woken, [], [1, 1, 25, 1, 6, 5], 2, 0⟩, [], []⟩),
  (1209340947970275412154448, ⟨⟨.active, true, false, .waiting, [], [0, 1, 26, 1, 4, 3], 2, 0⟩, ⟨.active, true, true, .idle, [], [1, 1, 24, 2, 6, 5], 2, 0⟩, [], []⟩),
  (415056300268406773840, ⟨⟨.active, true, false, .idle, [], [0, 1, 26, 0, 4, 3], 2, 0⟩, ⟨.active, false, true, .woken, [], [2, 1, 25, 1, 6, 5], 2, 1⟩, [], []⟩),
  (415056298069379389520, ⟨⟨.active, true, false, .idle, [], [0, 1, 26, 0, 4, 3], 2, 0⟩, ⟨.active, true, true, .idle, [], [2, 1, 24, 2, 6, 5], 2, 1⟩, [], []⟩),
  (415056298052203714640, ⟨⟨.active, true, false, .idle, [], [0, 1, 26, 0, 4, 3], 2, 0⟩, ⟨.active, false, true, .idle, [], [1, 1, 25, 2, 6, 5], 2, 0⟩, [], []⟩),
  (1209340947970292596086864, ⟨⟨.active, true, false, .waiting, [], [0, 1, 26, 1, 4, 3], 2, 0⟩, ⟨.active, false, true, .idle, [], [2, 1, 25, 0, 6, 5], 2, 1⟩, [], []⟩),
  (1209340947971392103585872, ⟨⟨.active, true, false, .waiting, [], [0, 1, 26, 1, 4, 3], 2, 0⟩, ⟨.active, true, true, .waiting, [], [2, 1, 24, 1, 6, 5], 2, 1⟩, [], []⟩),
  (1209340947971374927910992, ⟨⟨.active, true, false, .waiting, [], [0, 1, 26, 1, 4, 3], 2, 0⟩, ⟨.active, false, true, .waiting, [], [1, 1, 25, 1, 6, 5], 2, 0⟩, [], []⟩),
  (415056299168895146064, ⟨⟨.active, true, false, .idle, [], [0, 1, 26, 0, 4, 3], 2, 0⟩, ⟨.active, false, true, .waiting, [], [2, 1, 25, 1, 6, 5], 2, 1⟩, [], []⟩),
  (1209336336286473192020048, ⟨⟨.inactive, true, false, .waiting, [], [0, 1, 25, 1, 4, 3], 2, 0⟩, ⟨.active, false, true, .woken, [], [2, 1, 25, 1, 6, 5], 2, 1⟩, [], []⟩),
  (1209336336284274164635728, ⟨⟨.inactive, true, false, .waiting, [], [0, 1, 25, 1, 4, 3], 2, 0⟩, ⟨.active, true, true, .idle, [], [2, 1, 24, 2, 6, 5], 2, 1⟩, [], []⟩),
  (1209336336284256988960848, ⟨⟨.inactive, true, false, .waiting, [], [0, 1, 25, 1, 4, 3], 2, 0⟩, ⟨.active, false, true, .idle, [], [1, 1, 25, 2, 6, 5], 2, 0⟩, [], []⟩),
  (410444612050956195920, ⟨⟨.inactive, true, false, .idle, [], [0, 1, 25, 0, 4, 3], 2, 0⟩, ⟨.active, false, true, .idle, [], [2, 1, 25, 2, 6, 5], 2, 1⟩, [], []⟩),
  (1209336336285373680392272, ⟨⟨.inactive, true, false, .waiting, [], [0, 1, 25, 1, 4, 3], 2, 0⟩, ⟨.active, false, true, .waiting, [], [2, 1, 25, 1, 6, 5], 2, 1⟩, [], []⟩),
  (1209331724598255741442128, ⟨⟨.inactive, true, false, .waiting, [], [0, 1, 24, 1, 4, 3], 2, 0⟩, ⟨.active, false, true, .idle, [], [2, 1, 25, 2, 6, 5], 2, 1⟩, [], []⟩)]

end M3.Conn.Shake
