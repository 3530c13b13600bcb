import Verif.Lemmas.MinRun
import Verif.Lemmas.MinFast

set_option autoImplicit false

/-
Side, grid 4: no curve has less dilation.  This file is generated.
-/
namespace Peano
namespace MinCert

/-- Table of links and of their specs. -/
def side4Env : Env where
  N := 4
  G := 16
  m := 1
  S := 1
  W := 5
  B := 200
  L := 8
  links := [([0, 0], [0, 1]), ([0, 0], [1, 0]), ([0, 1], [0, 0]), ([0, 1], [1, 1]), ([1, 0], [0, 0]), ([1, 0], [1, 1]), ([1, 1], [0, 1]), ([1, 1], [1, 0])]
  doms := [
    [⟨[(1, false), (0, false)], false, 0⟩, ⟨[(1, false), (0, true)], true, 0⟩],
    [⟨[(0, false), (1, false)], false, 0⟩, ⟨[(0, true), (1, false)], true, 0⟩],
    [⟨[(1, false), (0, false)], true, 0⟩, ⟨[(1, false), (0, true)], false, 0⟩],
    [⟨[(0, false), (1, true)], false, 0⟩, ⟨[(0, true), (1, true)], true, 0⟩],
    [⟨[(0, false), (1, false)], true, 0⟩, ⟨[(0, true), (1, false)], false, 0⟩],
    [⟨[(1, true), (0, false)], false, 0⟩, ⟨[(1, true), (0, true)], true, 0⟩],
    [⟨[(0, false), (1, true)], true, 0⟩, ⟨[(0, true), (1, true)], false, 0⟩], [⟨[(1, true), (0, false)], true, 0⟩, ⟨[(1, true), (0, true)], false, 0⟩]]

/-- Data of the search of paths. -/
def side4Enum : Enum where
  L := 8
  B := 200
  ones := 6
  offs := [1, 4, 5, 6]
  trans := [
    [(1, 6), (1, 7), (2, 4), (2, 5), (7, 0), (7, 1)], [(5, 6), (5, 7), (10, 2), (10, 3), (11, 0), (11, 1)],
    [(0, 6), (0, 7), (1, 4), (1, 5), (5, 2), (5, 3)], [(7, 4), (7, 5), (11, 2), (11, 3), (12, 0), (12, 1)],
    [(0, 6), (0, 7), (1, 4), (1, 5), (5, 2), (5, 3)], [(7, 4), (7, 5), (11, 2), (11, 3), (12, 0), (12, 1)],
    [(1, 6), (1, 7), (2, 4), (2, 5), (7, 0), (7, 1)], [(5, 6), (5, 7), (10, 2), (10, 3), (11, 0), (11, 1)]]
  U := 32472000
  F := 2097152
  starts := [(6, 0), (6, 1)]
  finals := [(21, 1), (21, 7)]

def side4Tab : Tab := ⟨side4Env, [([0, 0], [1, 0])], [side4Enum]⟩

theorem side4_ok : side4Tab.Ok 2 4 1 2 := Fast.ok_sound (by decide +kernel)

def side4Paths0 : List ℕ := [
  1582091769988962142010737911895147169, 1582091769989091629516475805923825969, 1582091770011420026802682468027825969,
  1582091770011420658584316388027825969, 1582091770011420658584698468027825969, 1582091770011420659030008557627825969,
  1582091770011420659030305113029515575, 1582091770011420659030305168749515575, 1582091770011420659030316311181275575,
  1582091770011420659030316320733275575, 1582091770011420659032237357627825969, 1582091770014986106802682468027825969,
  1582091770133659380847150326351676775, 1582091770133659469999150326351676775, 1582091770133677300844910326351676775,
  1582091770133677389996910326351676775, 1582091770133678028671794154427825969, 1582091770133680522162682468027825969,
  1582091770137243380847139126351676775, 1582091770137243469999139126351676775, 1582091770137246602162682468027825969,
  1582091770137261300844899126351676775, 1582091770137261389996899126351676775, 1582091770137262028671794098427825969,
  1582091770137373683029922717533275575, 1582091770137389047763937113029515575, 1582091770137389047763937168749515575,
  1582091770137389047763948311181275575, 1582091770137389047763948320733275575, 1582091770137391513429922717533275575]

def side4Paths1 : List ℕ := [
  1582091770137392104403937113029515575, 1582091770137392104403937168749515575, 1582091770137392104403948311181275575,
  1582091770137392104403948320733275575, 1582091770138003447687137113029515575, 1582091770138003447687137168749515575,
  1582091770138003447687148311181275575, 1582091770138003447687148320733275575, 1582091770138003447701922717533275575,
  1582091770138006504327137113029515575, 1582091770138006504327137168749515575, 1582091770138006504327148311181275575,
  1582091770138006504327148320733275575, 1582091770138006504341922717533275575, 1582091770138006507298723114427825969,
  1582091770138006507298734258427825969, 1582091770138006507299104809107825969, 1582091770138006507299106717533507169,
  1582091770138006507299106719507825969, 1582092691285680410593009911895147169, 1582092696464423720396475805923825969,
  1582092715572815226802682468027825969, 1582092715572815858584316388027825969, 1582092715572815858584698468027825969,
  1582092715572815859030008557627825969, 1582092715572815859030305113029515575, 1582092715572815859030305168749515575,
  1582092715572815859030316311181275575]

def side4Paths2 : List ℕ := [
  1582092715572815859030316320733275575, 1582092715572815859032237357627825969, 1582277843114945320380670067061747169,
  1582277843114945320396464607909747169, 1582277843114945320396464617461747169, 1582277843114945320396475748367147169,
  1582277843114945320396475757909275575, 1582277843114945320396475757919147169, 1582277843757930673633009911895147169,
  1582277843761660309995478889167147169, 1582277843856420028336254067061747169, 1582277843856423084976254067061747169,
  1582277843857034428259454067061747169, 1582277843857037484899454067061747169, 1582277843880196273633009911895147169,
  1582277843884540309995478889109275575, 1582277843884540309995478889119147169, 1582277966653597873633009516751676775,
  1582277966653597873633009911615436775, 1582277966653616410500708406351676775, 1582277966653616410577124406351676775,
  1582277966653616425860706486351676775, 1582277966653616425937122486351676775, 1582277966678887601632930486351676775,
  1582277966678887602078690486351676775]

def side4Paths3 : List ℕ := [
  1582277966678887691140708406351676775, 1582277966678887691217124406351676775, 1582277986352065317219058551895147169,
  1582277986352065317219069695895147169, 1582277986352065317219452154815147169, 1582277986352065317219454065215147169,
  1582277986352083147619058551895147169, 1582277986352083147619069695895147169, 1582277986352083147619452154815147169,
  1582277986352083147619454065215147169, 1582277986355645628335858551895147169, 1582277986355645628335869695895147169,
  1582277986355645628336252154815147169, 1582277986355645628336254065215147169, 1582277986355648684975858551895147169,
  1582277986355648684975869695895147169, 1582277986355648684976252154815147169, 1582277986355648684976254065215147169,
  1582277986474945320396475757629275575, 1582277986503322801633009911895147169, 1582277987216538801633009911895147169,
  1582277987244540309995478888829275575, 1582277991106717873633009516751676775, 1582277991106717873633009911615436775,
  1582277991106736410500708406351676775]

def side4Paths4 : List ℕ := [
  1582277991106736410577124406351676775, 1582277991106736425860706486351676775, 1582277991106736425937122486351676775,
  1582281807412688762342075805923825969, 1582281807412688762787835805923825969, 1582281807412688778086192605923825969,
  1582281807412688778162608605923825969, 1582281807412688778162682477907825969, 1582281808125904762342075805923825969,
  1582281808125904762787835805923825969, 1582281808125904778086192605923825969, 1582281808125904778162608605923825969,
  1582281808125904778162682477907825969, 1582281950625133434342075805923825969, 1582281950625133434787835805923825969,
  1582281950625133450086192605923825969, 1582281950625133450162608605923825969, 1582281950625133450162682477907825969,
  1582281950747399034342075805923825969, 1582281950747399034787835805923825969]

def side4Paths5 : List ℕ := [
  1582281950747399050086192605923825969, 1582281950747399050162608605923825969, 1582281950747399050162682477907825969,
  1582282734155421873633009516751676775, 1582282734155421873633009911615436775, 1582282734155440410500708406351676775,
  1582282734155440410577124406351676775, 1582282734155440425860706486351676775, 1582282734155440425937122486351676775,
  1582282876798621873633009516751676775, 1582282876798621873633009911615436775, 1582282876798640410500708406351676775,
  1582282876798640410577124406351676775, 1582282876798640425860706486351676775, 1582282876798640425937122486351676775,
  1620100175412688127228786551895147169, 1620100175412688127228797695895147169, 1620100175412688127231026551615147169,
  1620100175412688127231037695615147169, 1620100175412688127293054067061747169, 1620100175412688762342075748029275575,
  1620100175412688762787835748029275575, 1620100175412688778086192548029275575, 1620100175412688778162608548029275575,
  1620100175412688778162682477629507169, 1620100175412815133486829359951676775]

def side4Paths6 : List ℕ := [
  1620100175412815858567137170735436775, 1620100175412815859029920809167147169, 1620100175412815859029922719567147169,
  1620100175412815859029923114429275575, 1620100175412815859029934258429275575, 1620100175412815859030304809109275575,
  1620100175412815859030304809119147169, 1620100175412815859030306719509275575, 1620100175412815859030306719519147169,
  1620100176125904127228786551895147169, 1620100176125904127228797695895147169, 1620100176125904127231026551615147169,
  1620100176125904127231037695615147169, 1620100176125904127293054067061747169, 1620100176125904762342075748029275575,
  1620100176125904762787835748029275575, 1620100176125904778086192548029275575, 1620100176125904778162608548029275575,
  1620100176125904778162682477629507169, 1620100298922945320380670067061747169, 1620100298922945320396464607909747169,
  1620100298922945320396464617461747169, 1620100298922945320396475748367147169, 1620100298922945320396475757909275575,
  1620100298922945320396475757919147169, 1620100299565930673633009911895147169, 1620100299569660309995478889167147169,
  1620100299664420028336254067061747169]

def side4Paths7 : List ℕ := [
  1620100299664423084976254067061747169, 1620100299665034428259454067061747169, 1620100299665037484899454067061747169,
  1620100299688196273633009911895147169, 1620100299692540309995478889109275575, 1620100299692540309995478889119147169,
  1620100318625133434342075748029275575, 1620100318625133434787835748029275575, 1620100318625133450086192548029275575,
  1620100318625133450162608548029275575, 1620100318625133450162682477629507169, 1620100318747399034342075748029275575,
  1620100318747399034787835748029275575, 1620100318747399050086192548029275575, 1620100318747399050162608548029275575,
  1620100318747399050162682477629507169, 1620100318772670207228786551895147169, 1620100318772670207228797695895147169,
  1620100318772670207231026551615147169, 1620100318772670207231037695615147169, 1620100318772670207293054067061747169,
  1620100319485886207228786551895147169, 1620100319485886207228797695895147169, 1620100319485886207231026551615147169,
  1620100319485886207231037695615147169, 1620100319485886207293054067061747169, 1620100323376065320380670067061747169]

def side4Paths8 : List ℕ := [
  1620100323376065320396464607909747169, 1620100323376065320396464617461747169, 1620100323376065320396475748367147169,
  1620100323376065320396475757909275575, 1620100323376065320396475757919147169, 1620100324141927601633009911895147169,
  1620100324145660309995478879567147169, 1620100324264193201633009911895147169, 1620100324268540309995478879509275575,
  1620100324268540309995478879519147169, 1620128818470250285500670067061747169, 1620128818470250285516464607909747169,
  1620128818470250285516464617461747169, 1620128818470250285516475748367147169, 1620128818470250285516475757909275575,
  1620128818470250285516475757919147169, 1620128818470250374652670067061747169, 1620128818470253341948786551895147169,
  1620128818470253341948797695895147169, 1620128818470253341951026551615147169, 1620128818470253341951037695615147169,
  1620128818470253342013054067061747169, 1620128818470253431165054067061747169, 1620128818470253434726194098709275575,
  1620128818470253434726194098719147169, 1620128818470253434802610098709275575]

def side4Paths9 : List ℕ := [
  1620128818470253434802610098719147169, 1620128818470253450086192178709275575, 1620128818470253450086192178719147169,
  1620128818470253450162608178709275575, 1620128818470253450162608178719147169, 1620128818493889320380670067061747169,
  1620128818493889320396464607909747169, 1620128818493889320396464617461747169, 1620128818493889320396475748367147169,
  1620128818493889320396475757909275575, 1620128818493889320396475757919147169, 1620128842947009320380670067061747169,
  1620128842947009320396464607909747169, 1620128842947009320396464617461747169, 1620128842947009320396475748367147169,
  1620128842947009320396475757909275575, 1620128842947009320396475757919147169, 1620129921878890655543908406351676775,
  1620129941674221756335858551895147169, 1620129941674221756335869695895147169, 1620129941674221756336252154815147169,
  1620129941674221756336254065215147169]

def side4Paths10 : List ℕ := [
  1620319028456385317219058551893755575, 1620319028456385317219069695893755575, 1620319028456385317219452154813755575,
  1620319028456385317219454065213755575, 1620319028456385320378348719951676775, 1620319028456385320396464178719436775,
  1620319028456403147619058551893755575, 1620319028456403147619069695893755575, 1620319028456403147619452154813755575,
  1620319028456403147619454065213755575, 1620319028459965628335858551893755575, 1620319028459965628335869695893755575,
  1620319028459965628336252154813755575, 1620319028459965628336254065213755575, 1620319028459968684975858551893755575,
  1620319028459968684975869695893755575, 1620319028459968684976252154813755575, 1620319028459968684976254065213755575,
  1620319033514221756335858551893755575, 1620319033514221756335869695893755575, 1620319033514221756336252154813755575]

def side4Paths11 : List ℕ := [
  1620319033514221756336254065213755575, 1620319034157930655543908406351676775, 1620319034280196255543908406351676775,
  1620319176751341756257137516751676775, 1620319176751341756257137911615436775, 1620319176751341756259366316751676775,
  1620319176751341756333550326351676775, 1620319176751341756335779126351676775, 1620319176751342347233009516751676775,
  1620319176751342347233009911615436775, 1620319176751953675233009516751676775, 1620319176751953675233009911615436775,
  1620319176874340529633009516751676775, 1620319176874340529633009911615436775, 1620319176877906609633009516751676775,
  1620319176877906609633009911615436775, 1620319176900237481721582326351676775, 1620319176903322783543908406351676775,
  1620319177616538783543908406351676775, 1620319177617037481721571126351676775]

def side4Tree : CT :=
  .node (.node (.node (.node (.node (.node (.node (.node (.node .nil 1582091769988962142010737911895147169 .nil)
  1582091769989091629516475805923825969 .nil) 1582091770011420026802682468027825969 (.node .nil 1582091770011420658584316388027825969 .nil))
  1582091770011420658584698468027825969 (.node (.node (.node .nil 1582091770011420659030008557627825969 .nil) 1582091770011420659030305113029515575
  .nil) 1582091770011420659030305168749515575 (.node .nil 1582091770011420659030316311181275575 .nil))) 1582091770011420659030316320733275575 (.node
  (.node (.node (.node .nil 1582091770011420659032237357627825969 .nil) 1582091770014986106802682468027825969 .nil)
  1582091770133659380847150326351676775 (.node .nil 1582091770133659469999150326351676775 .nil)) 1582091770133677300844910326351676775 (.node (.node
  .nil 1582091770133677389996910326351676775 .nil) 1582091770133678028671794154427825969 (.node .nil 1582091770133680522162682468027825969 .nil))))
  1582091770137243380847139126351676775 (.node (.node (.node (.node (.node .nil 1582091770137243469999139126351676775 .nil)
  1582091770137246602162682468027825969 .nil) 1582091770137261300844899126351676775 (.node .nil 1582091770137261389996899126351676775 .nil))
  1582091770137262028671794098427825969 (.node (.node (.node .nil 1582091770137373683029922717533275575 .nil) 1582091770137389047763937113029515575
  .nil) 1582091770137389047763937168749515575 (.node .nil 1582091770137389047763948311181275575 .nil))) 1582091770137389047763948320733275575 (.node
  (.node (.node (.node .nil 1582091770137391513429922717533275575 .nil) 1582091770137392104403937113029515575 .nil)
  1582091770137392104403937168749515575 (.node .nil 1582091770137392104403948311181275575 .nil)) 1582091770137392104403948320733275575 (.node (.node
  .nil 1582091770138003447687137113029515575 .nil) 1582091770138003447687137168749515575 (.node .nil 1582091770138003447687148311181275575 .nil)))))
  1582091770138003447687148320733275575 (.node (.node (.node (.node (.node (.node .nil 1582091770138003447701922717533275575 .nil)
  1582091770138006504327137113029515575 .nil) 1582091770138006504327137168749515575 (.node .nil 1582091770138006504327148311181275575 .nil))
  1582091770138006504327148320733275575 (.node (.node (.node .nil 1582091770138006504341922717533275575 .nil) 1582091770138006507298723114427825969
  .nil) 1582091770138006507298734258427825969 (.node .nil 1582091770138006507299104809107825969 .nil))) 1582091770138006507299106717533507169 (.node
  (.node (.node (.node .nil 1582091770138006507299106719507825969 .nil) 1582092691285680410593009911895147169 .nil)
  1582092696464423720396475805923825969 (.node .nil 1582092715572815226802682468027825969 .nil)) 1582092715572815858584316388027825969 (.node (.node
  .nil 1582092715572815858584698468027825969 .nil) 1582092715572815859030008557627825969 (.node .nil 1582092715572815859030305113029515575 .nil))))
  1582092715572815859030305168749515575 (.node (.node (.node (.node (.node .nil 1582092715572815859030316311181275575 .nil)
  1582092715572815859030316320733275575 .nil) 1582092715572815859032237357627825969 (.node .nil 1582277843114945320380670067061747169 .nil))
  1582277843114945320396464607909747169 (.node (.node .nil 1582277843114945320396464617461747169 .nil) 1582277843114945320396475748367147169 (.node
  .nil 1582277843114945320396475757909275575 .nil))) 1582277843114945320396475757919147169 (.node (.node (.node (.node .nil
  1582277843757930673633009911895147169 .nil) 1582277843761660309995478889167147169 .nil) 1582277843856420028336254067061747169 (.node .nil
  1582277843856423084976254067061747169 .nil)) 1582277843857034428259454067061747169 (.node (.node .nil 1582277843857037484899454067061747169 .nil)
  1582277843880196273633009911895147169 (.node .nil 1582277843884540309995478889109275575 .nil)))))) 1582277843884540309995478889119147169 (.node
  (.node (.node (.node (.node (.node (.node .nil 1582277966653597873633009516751676775 .nil) 1582277966653597873633009911615436775 .nil)
  1582277966653616410500708406351676775 (.node .nil 1582277966653616410577124406351676775 .nil)) 1582277966653616425860706486351676775 (.node (.node
  (.node .nil 1582277966653616425937122486351676775 .nil) 1582277966678887601632930486351676775 .nil) 1582277966678887602078690486351676775 (.node
  .nil 1582277966678887691140708406351676775 .nil))) 1582277966678887691217124406351676775 (.node (.node (.node (.node .nil
  1582277986352065317219058551895147169 .nil) 1582277986352065317219069695895147169 .nil) 1582277986352065317219452154815147169 (.node .nil
  1582277986352065317219454065215147169 .nil)) 1582277986352083147619058551895147169 (.node (.node .nil 1582277986352083147619069695895147169 .nil)
  1582277986352083147619452154815147169 (.node .nil 1582277986352083147619454065215147169 .nil)))) 1582277986355645628335858551895147169 (.node
  (.node (.node (.node (.node .nil 1582277986355645628335869695895147169 .nil) 1582277986355645628336252154815147169 .nil)
  1582277986355645628336254065215147169 (.node .nil 1582277986355648684975858551895147169 .nil)) 1582277986355648684975869695895147169 (.node (.node
  (.node .nil 1582277986355648684976252154815147169 .nil) 1582277986355648684976254065215147169 .nil) 1582277986474945320396475757629275575 (.node
  .nil 1582277986503322801633009911895147169 .nil))) 1582277987216538801633009911895147169 (.node (.node (.node (.node .nil
  1582277987244540309995478888829275575 .nil) 1582277991106717873633009516751676775 .nil) 1582277991106717873633009911615436775 (.node .nil
  1582277991106736410500708406351676775 .nil)) 1582277991106736410577124406351676775 (.node (.node .nil 1582277991106736425860706486351676775 .nil)
  1582277991106736425937122486351676775 (.node .nil 1582281807412688762342075805923825969 .nil))))) 1582281807412688762787835805923825969 (.node
  (.node (.node (.node (.node (.node .nil 1582281807412688778086192605923825969 .nil) 1582281807412688778162608605923825969 .nil)
  1582281807412688778162682477907825969 (.node .nil 1582281808125904762342075805923825969 .nil)) 1582281808125904762787835805923825969 (.node (.node
  (.node .nil 1582281808125904778086192605923825969 .nil) 1582281808125904778162608605923825969 .nil) 1582281808125904778162682477907825969 (.node
  .nil 1582281950625133434342075805923825969 .nil))) 1582281950625133434787835805923825969 (.node (.node (.node (.node .nil
  1582281950625133450086192605923825969 .nil) 1582281950625133450162608605923825969 .nil) 1582281950625133450162682477907825969 (.node .nil
  1582281950747399034342075805923825969 .nil)) 1582281950747399034787835805923825969 (.node (.node .nil 1582281950747399050086192605923825969 .nil)
  1582281950747399050162608605923825969 (.node .nil 1582281950747399050162682477907825969 .nil)))) 1582282734155421873633009516751676775 (.node
  (.node (.node (.node (.node .nil 1582282734155421873633009911615436775 .nil) 1582282734155440410500708406351676775 .nil)
  1582282734155440410577124406351676775 (.node .nil 1582282734155440425860706486351676775 .nil)) 1582282734155440425937122486351676775 (.node (.node
  .nil 1582282876798621873633009516751676775 .nil) 1582282876798621873633009911615436775 (.node .nil 1582282876798640410500708406351676775 .nil)))
  1582282876798640410577124406351676775 (.node (.node (.node (.node .nil 1582282876798640425860706486351676775 .nil)
  1582282876798640425937122486351676775 .nil) 1620100175412688127228786551895147169 (.node .nil 1620100175412688127228797695895147169 .nil))
  1620100175412688127231026551615147169 (.node (.node .nil 1620100175412688127231037695615147169 .nil) 1620100175412688127293054067061747169 (.node
  .nil 1620100175412688762342075748029275575 .nil))))))) 1620100175412688762787835748029275575 (.node (.node (.node (.node (.node (.node (.node
  (.node .nil 1620100175412688778086192548029275575 .nil) 1620100175412688778162608548029275575 .nil) 1620100175412688778162682477629507169 (.node
  .nil 1620100175412815133486829359951676775 .nil)) 1620100175412815858567137170735436775 (.node (.node (.node .nil
  1620100175412815859029920809167147169 .nil) 1620100175412815859029922719567147169 .nil) 1620100175412815859029923114429275575 (.node .nil
  1620100175412815859029934258429275575 .nil))) 1620100175412815859030304809109275575 (.node (.node (.node (.node .nil
  1620100175412815859030304809119147169 .nil) 1620100175412815859030306719509275575 .nil) 1620100175412815859030306719519147169 (.node .nil
  1620100176125904127228786551895147169 .nil)) 1620100176125904127228797695895147169 (.node (.node .nil 1620100176125904127231026551615147169 .nil)
  1620100176125904127231037695615147169 (.node .nil 1620100176125904127293054067061747169 .nil)))) 1620100176125904762342075748029275575 (.node
  (.node (.node (.node (.node .nil 1620100176125904762787835748029275575 .nil) 1620100176125904778086192548029275575 .nil)
  1620100176125904778162608548029275575 (.node .nil 1620100176125904778162682477629507169 .nil)) 1620100298922945320380670067061747169 (.node (.node
  (.node .nil 1620100298922945320396464607909747169 .nil) 1620100298922945320396464617461747169 .nil) 1620100298922945320396475748367147169 (.node
  .nil 1620100298922945320396475757909275575 .nil))) 1620100298922945320396475757919147169 (.node (.node (.node (.node .nil
  1620100299565930673633009911895147169 .nil) 1620100299569660309995478889167147169 .nil) 1620100299664420028336254067061747169 (.node .nil
  1620100299664423084976254067061747169 .nil)) 1620100299665034428259454067061747169 (.node (.node .nil 1620100299665037484899454067061747169 .nil)
  1620100299688196273633009911895147169 (.node .nil 1620100299692540309995478889109275575 .nil))))) 1620100299692540309995478889119147169 (.node
  (.node (.node (.node (.node (.node .nil 1620100318625133434342075748029275575 .nil) 1620100318625133434787835748029275575 .nil)
  1620100318625133450086192548029275575 (.node .nil 1620100318625133450162608548029275575 .nil)) 1620100318625133450162682477629507169 (.node (.node
  (.node .nil 1620100318747399034342075748029275575 .nil) 1620100318747399034787835748029275575 .nil) 1620100318747399050086192548029275575 (.node
  .nil 1620100318747399050162608548029275575 .nil))) 1620100318747399050162682477629507169 (.node (.node (.node (.node .nil
  1620100318772670207228786551895147169 .nil) 1620100318772670207228797695895147169 .nil) 1620100318772670207231026551615147169 (.node .nil
  1620100318772670207231037695615147169 .nil)) 1620100318772670207293054067061747169 (.node (.node .nil 1620100319485886207228786551895147169 .nil)
  1620100319485886207228797695895147169 (.node .nil 1620100319485886207231026551615147169 .nil)))) 1620100319485886207231037695615147169 (.node
  (.node (.node (.node (.node .nil 1620100319485886207293054067061747169 .nil) 1620100323376065320380670067061747169 .nil)
  1620100323376065320396464607909747169 (.node .nil 1620100323376065320396464617461747169 .nil)) 1620100323376065320396475748367147169 (.node (.node
  .nil 1620100323376065320396475757909275575 .nil) 1620100323376065320396475757919147169 (.node .nil 1620100324141927601633009911895147169 .nil)))
  1620100324145660309995478879567147169 (.node (.node (.node (.node .nil 1620100324264193201633009911895147169 .nil)
  1620100324268540309995478879509275575 .nil) 1620100324268540309995478879519147169 (.node .nil 1620128818470250285500670067061747169 .nil))
  1620128818470250285516464607909747169 (.node (.node .nil 1620128818470250285516464617461747169 .nil) 1620128818470250285516475748367147169 (.node
  .nil 1620128818470250285516475757909275575 .nil)))))) 1620128818470250285516475757919147169 (.node (.node (.node (.node (.node (.node (.node .nil
  1620128818470250374652670067061747169 .nil) 1620128818470253341948786551895147169 .nil) 1620128818470253341948797695895147169 (.node .nil
  1620128818470253341951026551615147169 .nil)) 1620128818470253341951037695615147169 (.node (.node (.node .nil 1620128818470253342013054067061747169
  .nil) 1620128818470253431165054067061747169 .nil) 1620128818470253434726194098709275575 (.node .nil 1620128818470253434726194098719147169 .nil)))
  1620128818470253434802610098709275575 (.node (.node (.node (.node .nil 1620128818470253434802610098719147169 .nil)
  1620128818470253450086192178709275575 .nil) 1620128818470253450086192178719147169 (.node .nil 1620128818470253450162608178709275575 .nil))
  1620128818470253450162608178719147169 (.node (.node .nil 1620128818493889320380670067061747169 .nil) 1620128818493889320396464607909747169 (.node
  .nil 1620128818493889320396464617461747169 .nil)))) 1620128818493889320396475748367147169 (.node (.node (.node (.node (.node .nil
  1620128818493889320396475757909275575 .nil) 1620128818493889320396475757919147169 .nil) 1620128842947009320380670067061747169 (.node .nil
  1620128842947009320396464607909747169 .nil)) 1620128842947009320396464617461747169 (.node (.node .nil 1620128842947009320396475748367147169 .nil)
  1620128842947009320396475757909275575 (.node .nil 1620128842947009320396475757919147169 .nil))) 1620129921878890655543908406351676775 (.node (.node
  (.node (.node .nil 1620129941674221756335858551895147169 .nil) 1620129941674221756335869695895147169 .nil) 1620129941674221756336252154815147169
  (.node .nil 1620129941674221756336254065215147169 .nil)) 1620319028456385317219058551893755575 (.node (.node .nil
  1620319028456385317219069695893755575 .nil) 1620319028456385317219452154813755575 (.node .nil 1620319028456385317219454065213755575 .nil)))))
  1620319028456385320378348719951676775 (.node (.node (.node (.node (.node (.node .nil 1620319028456385320396464178719436775 .nil)
  1620319028456403147619058551893755575 .nil) 1620319028456403147619069695893755575 (.node .nil 1620319028456403147619452154813755575 .nil))
  1620319028456403147619454065213755575 (.node (.node (.node .nil 1620319028459965628335858551893755575 .nil) 1620319028459965628335869695893755575
  .nil) 1620319028459965628336252154813755575 (.node .nil 1620319028459965628336254065213755575 .nil))) 1620319028459968684975858551893755575 (.node
  (.node (.node (.node .nil 1620319028459968684975869695893755575 .nil) 1620319028459968684976252154813755575 .nil)
  1620319028459968684976254065213755575 (.node .nil 1620319033514221756335858551893755575 .nil)) 1620319033514221756335869695893755575 (.node (.node
  .nil 1620319033514221756336252154813755575 .nil) 1620319033514221756336254065213755575 (.node .nil 1620319034157930655543908406351676775 .nil))))
  1620319034280196255543908406351676775 (.node (.node (.node (.node (.node .nil 1620319176751341756257137516751676775 .nil)
  1620319176751341756257137911615436775 .nil) 1620319176751341756259366316751676775 (.node .nil 1620319176751341756333550326351676775 .nil))
  1620319176751341756335779126351676775 (.node (.node .nil 1620319176751342347233009516751676775 .nil) 1620319176751342347233009911615436775 (.node
  .nil 1620319176751953675233009516751676775 .nil))) 1620319176751953675233009911615436775 (.node (.node (.node (.node .nil
  1620319176874340529633009516751676775 .nil) 1620319176874340529633009911615436775 .nil) 1620319176877906609633009516751676775 (.node .nil
  1620319176877906609633009911615436775 .nil)) 1620319176900237481721582326351676775 (.node (.node .nil 1620319176903322783543908406351676775 .nil)
  1620319177616538783543908406351676775 (.node .nil 1620319177617037481721571126351676775 .nil)))))))

theorem side4_paths : ∀ P ∈ side4Enum.all 16, P ∈ side4Paths0 ++ (side4Paths1 ++ (side4Paths2 ++ (side4Paths3 ++ (side4Paths4 ++ (side4Paths5 ++ (side4Paths6 ++ (side4Paths7 ++ (side4Paths8 ++ (side4Paths9 ++ (side4Paths10 ++ (side4Paths11))))))))))) := by
  have h : side4Tree.toList = side4Paths0 ++ (side4Paths1 ++ (side4Paths2 ++ (side4Paths3 ++ (side4Paths4 ++ (side4Paths5 ++ (side4Paths6 ++ (side4Paths7 ++ (side4Paths8 ++ (side4Paths9 ++ (side4Paths10 ++ (side4Paths11))))))))))) := by decide +kernel
  rw [← h]
  exact side4Enum.allF_sound 16 side4Tree (by decide +kernel)

def side4_l1_0 : List ℕ := [
  24, 28, 36893629298298064425, 36893630260370738725, 12, 73795984458313367569, 36893612668184692781, 12, 8, 73795984045996507149,
  73795984045996507149, 16, 36893577208934696993, 36893577346373650449, 12, 8, 73795984045996507149, 73795984045996507149, 16, 36893576934056790029,
  36893577758690510869, 12, 8, 73795984045996507149, 73795984045996507149, 16, 36893577071495743497, 36893577758690510869, 12, 8,
  73795984045996507149, 73795984045996507149, 16, 36893577071495743497, 36893577758690510869, 12, 8, 73795984045996507149, 73795984045996507149, 16,
  36893577071495743497, 36893577758690510869, 12, 8, 73795984045996507149, 73795984045996507149, 16, 36893577071495743497, 36893576934056790041, 12,
  8, 73795984045996507149, 73795984045996507149, 16, 36893577071495743497, 36893576934056790041, 12, 8, 73795984045996507149, 73795984045996507149,
  16, 36893577071495743497, 36893577758690510869, 12, 8, 73795984045996507149, 73795984045996507149, 16, 36893577071495743497, 36893577758690510869,
  8, 12, 73795984045996507149, 16, 36893577071495743497, 36893577758690510869, 12, 73795984045996507149, 16, 36893577071495743497,
  36893577758690510869, 12, 8, 73795984045996507149, 73795984045996507149, 16, 36893576934056790029, 36893577758690510869, 12, 8,
  73795984045996507149, 73795984045996507149, 48, 52, 110709739767202644021, 110709739767202644021, 8, 19809519872151838654858266165,
  19809519872151821053084042769, 12, 8, 73795984045996507149, 73795984045996507149, 28, 36893629298298062901, 36893630672687597621, 24, 20,
  36893612805623647249, 36893612805623647277, 20, 36893611980989926417, 36893611843550972973, 12, 8, 73795984045996507149, 73795984045996507149, 28,
  36893629298298062901, 36893630672687597621, 12, 8, 73795984045996507149, 73795984045996507149, 28, 36893630122931783701, 36893629298298062881, 32,
  52, 48, 4722398254770033793573, 110700732430508687397, 110700732567947640869, 12, 8, 73795984045996507149, 73795984045996507149, 52,
  1209075987887169733197861, 1813721923983340657508389, 16, 20, 36893595213437602349, 36893594251364928045, 20, 36893595213437602321,
  36893594388803881489, 12, 8, 73795984045996507149, 73795984045996507149, 28, 36893629298298062901, 36893630672687597621, 12, 8,
  73795984045996507149, 73795984045996507149, 20, 604464648355237865983013, 36893594938559694885, 16, 20, 36893595213437602349, 36893594251364928045,
  20, 36893595213437602321, 36893594388803881489, 12, 8, 73795984045996507149, 73795984045996507149, 28, 36893629298298062901, 36893630672687597621,
  12, 8, 73795984045996507149, 73795984045996507149, 28, 36893630122931783701, 36893629298298062881, 12, 8, 73795984045996507149,
  73795984045996507149, 20, 36893594663681787925, 36893594113925974045, 12, 8, 73795984045996507149, 73795984045996507149, 20, 36893594663681787925,
  36893594113925974045, 12, 8, 73795984045996507149, 73795984045996507149, 20, 36893594663681787925, 36893594113925974045, 12, 8,
  73795984045996507149, 73795984045996507149, 20, 36893594663681787925, 36893594113925974045, 12, 8, 73795984045996507149, 73795984045996507149, 20,
  36893594663681787925, 36893594113925974045, 24, 864814281273638917, 12, 576531128563793925, 73796106646911451141]

theorem side4_l1_run0 : run .l1 2 9 1 side4Env [] side4_l1_0 (side4Paths0.map fun P => ⟨[P], []⟩) = true := Run.run_one (by decide +kernel)

def side4_l1_1 : List ℕ := [
  24, 864814281273638917, 12, 576531128563793925, 73796106646911451141, 24, 864814281273638917, 12, 576531128563793925, 73796106646911451141, 24,
  864814281273638917, 12, 576531128563793925, 73796106646911451141, 24, 864814281273638917, 12, 576531128563793925, 73796106646911451141, 12, 8,
  73795984045996507149, 73795984045996507149, 24, 36893612255867832341, 36893611706112018461, 12, 8, 73795984045996507149, 73795984045996507149, 24,
  36893612255867832341, 36893611706112018461, 12, 8, 73795984045996507149, 73795984045996507149, 24, 36893612255867832341, 36893611706112018461, 12,
  8, 73795984045996507149, 73795984045996507149, 24, 36893612255867832341, 36893611706112018461, 12, 8, 73795984045996507149, 73795984045996507149,
  24, 36893612255867832341, 36893611706112018461, 24, 864814281273638917, 12, 576531128563793925, 73796106646911451141, 24, 864814281273638917, 12,
  576531128563793925, 73796106646911451141, 24, 864814281273638917, 12, 576531128563793925, 73796106646911451141, 24, 864814281273638917, 12,
  576531128563793925, 73796106646911451141, 24, 864814281273638917, 12, 576531128563793925, 73796106646911451141, 24, 864814281273638917, 12,
  576531128563793925, 73796106646911451141, 24, 864814281273638917, 12, 576531128563793925, 73796106646911451141, 24, 864814281273638917, 12,
  576531128563793925, 73796106646911451141, 24, 864814281273638917, 12, 576531128563793925, 73796106646911451141, 24, 864814281273638917, 12,
  576531128563793925, 73796106646911451141, 8, 12, 36893559754187605533, 36893558792114931237, 12, 36893559754187605513, 16, 36893576384300976165,
  36893577346373649965, 8, 12, 36893559066992838173, 36893559479309698589, 12, 36893559204431791633, 36893559479309698577, 12, 16,
  36893576796617836565, 73798235983249211409, 16, 36893576934056790029, 73798235983249211409, 4, 8, 36893541887123653689, 12, 36893558792114931229,
  16, 36893577071495743497, 73798235983249211409, 8, 36893541199928886301, 12, 36893558792114931229, 16, 36893577071495743497, 73798235983249211409,
  4, 8, 36893541887123653689, 12, 36893558792114931229, 16, 36893577071495743497, 73798235983249211409, 8, 36893541199928886301, 12,
  36893558792114931229, 16, 36893577071495743497, 73798235983249211409, 4, 8, 36893541887123653689, 12, 36893558792114931229, 16,
  36893577071495743497, 73798235983249211409, 8, 36893541199928886301, 12, 36893558792114931229, 16, 36893577071495743497, 73798235983249211409, 12,
  16, 36893576796617836565, 73798235983249211409, 16, 36893577071495743497, 28, 44, 110698480493255983137, 110698480493255983137,
  9446174259459196780565, 12, 16, 36893576796617836565, 73798235983249211409, 16, 36893577071495743497, 73798235983249211409, 12, 16,
  36893576796617836565, 73798235983249211409, 16, 36893577071495743497, 73798235983249211409]

theorem side4_l1_run1 : run .l1 2 9 1 side4Env [] side4_l1_1 (side4Paths1.map fun P => ⟨[P], []⟩) = true := Run.run_one (by decide +kernel)

def side4_l1_2 : List ℕ := [
  12, 16, 36893576796617836565, 73798235983249211409, 16, 36893577071495743497, 73798235983249211409, 4, 8, 36893541887123653689, 12,
  36893558792114931229, 16, 36893577071495743497, 73798235983249211409, 8, 36893541199928886301, 12, 36893558792114931229, 16, 36893577071495743497,
  73798235983249211409, 8, 4, 36893541474806793245, 36893542024562607137, 4, 36893541887123653661, 36893541887123653649, 8, 4, 36893541474806793245,
  36893542162001560593, 4, 36893541887123653661, 36893541887123653649, 8, 4, 36893541474806793245, 36893542162001560593, 4, 36893541887123653661,
  36893541887123653649, 4, 8, 36893541474806793245, 36893541887123653661, 8, 36893542162001560593, 36893541887123653649, 8, 4, 36893541474806793245,
  36893542162001560593, 4, 36893541887123653661, 36893541887123653649, 8, 4, 36893541474806793245, 36893542162001560593, 4, 36893541887123653661,
  36893541887123653649, 4, 8, 36893541612245746721, 36893542162001560605, 8, 36893541612245746705, 36893542162001560585, 24, 864814281273638917, 36,
  73809617445793562629, 1513976627241, 4, 8, 36893541474806793245, 36893541887123653661, 8, 36893541612245746705, 36893541887123653649, 4, 8,
  36893541474806793245, 36893541887123653661, 8, 36893541612245746705, 36893541887123653649, 4, 8, 36893541474806793245, 36893541887123653661, 8,
  36893541612245746705, 36893541887123653649, 8, 4, 36893541474806793245, 36893541612245746705, 4, 36893541887123653661, 36893541887123653649, 4, 8,
  36893541612245746721, 36893542162001560605, 8, 36893541612245746705, 36893542162001560585, 24, 864814281273638917, 36, 73809617445793562629,
  1513976627241, 24, 864814281273638917, 36, 73809617445793562629, 1513976627241, 4, 8, 36893541199928886309, 36893542162001560605, 12, 32, 16,
  36893577896129464357, 20, 24, 36893613080501554213, 36, 40, 36893683449245733925, 44, 48, 110709739629763690545, 36893718083862009885,
  36893701041431778853, 36893665307303875125, 36893595488315509285, 9447327198692354558005, 36893559754187605045, 32, 44, 14170558424641406243365,
  48, 36893718083862009885, 36893717121789335589, 12, 9447327198692354557997, 73807243732260028433, 36, 1513976627241, 48, 110709739224970559525,
  73809723002139443237, 4, 8, 36893541199928886309, 36893542162001560605, 12, 16, 36893577896129464357, 20, 24, 36893611568673066021,
  36893612530745740317, 36893595488315509285, 36893559754187605045, 36, 1513976627241, 48, 110709739224970559525, 73809723002139443237, 4, 8,
  36893541199928886309, 36893542162001560605, 12, 16, 36893577896129464357, 20, 24, 36893611568673066021, 36893612530745740317, 36893595488315509285,
  36893559754187605045, 4, 8, 36893541612245746721, 36893542162001560605, 8, 36893541612245746705, 36893542162001560585, 36, 48,
  110709739224970559525, 73809723002139443237, 1513976627241]

theorem side4_l1_run2 : run .l1 2 9 1 side4Env [] side4_l1_2 (side4Paths2.map fun P => ⟨[P], []⟩) = true := Run.run_one (by decide +kernel)

def side4_l1_3 : List ℕ := [
  36, 1513976627241, 48, 110709739224970559525, 73809723002139443237, 4, 8, 36893541612245746721, 36893542162001560605, 8, 36893541612245746705,
  36893542162001560585, 8, 12, 36893559066992838173, 36893559479309698589, 4, 36893541887123653661, 36893541887123653649, 8, 12,
  36893559066992838173, 36893559479309698589, 4, 36893541887123653661, 36893541887123653649, 8, 12, 36893559066992838173, 36893559479309698589, 4,
  36893541887123653661, 36893541887123653649, 8, 12, 36893559066992838173, 36893559479309698589, 4, 36893541887123653661, 36893541887123653649, 8,
  12, 36893559066992838173, 36893559479309698589, 4, 36893541887123653661, 36893541887123653649, 8, 12, 36893559066992838173, 36893559479309698589,
  4, 36893541887123653661, 36893541887123653649, 8, 12, 36893559066992838173, 36893559479309698589, 4, 36893541887123653661, 36893541887123653649, 8,
  12, 36893559066992838173, 36893559479309698589, 4, 36893541887123653661, 36893541887123653649, 8, 12, 36893559066992838173, 36893559479309698589,
  4, 36893541887123653661, 36893541887123653649, 8, 12, 36893559066992838173, 36893559479309698589, 4, 36893541887123653661, 36893541887123653649, 8,
  12, 36893559066992838173, 36893559479309698589, 4, 36893541887123653661, 36893541887123653649, 8, 12, 36893559066992838173, 36893559479309698589,
  4, 36893541887123653661, 36893541887123653649, 8, 12, 36893559066992838173, 36893559479309698589, 4, 36893541887123653661, 36893541887123653649, 8,
  12, 36893559066992838173, 36893559479309698589, 4, 36893541887123653661, 36893541887123653649, 8, 12, 36893559066992838173, 36893559479309698589,
  4, 36893541887123653661, 36893541887123653649, 8, 12, 36893559066992838173, 36893559479309698589, 4, 36893541887123653661, 36893541887123653649, 4,
  8, 36893541474806793245, 36893541887123653661, 8, 36893542162001560593, 36893541887123653649, 4, 8, 36893541612245746721, 36893542162001560605, 8,
  36893541612245746705, 36893542162001560585, 4, 8, 36893541612245746721, 36893542162001560605, 8, 36893541612245746705, 36893542162001560585, 24,
  864814281273638917, 36, 73809617445793562629, 1513976627241, 8, 12, 36893558792114931237, 36893559754187605533, 4, 36893542162001560605,
  36893542162001560585, 8, 12, 36893558792114931237, 36893559754187605533, 4, 36893542162001560605, 36893542162001560585, 36, 1513976627241, 48,
  110709739224970559525, 73809723002139443237]

theorem side4_l1_run3 : run .l1 2 9 1 side4Env [] side4_l1_3 (side4Paths3.map fun P => ⟨[P], []⟩) = true := Run.run_one (by decide +kernel)

def side4_l1_4 : List ℕ := [
  8, 12, 36893558792114931237, 36893559754187605533, 4, 36893542162001560605, 36893542162001560585, 36, 1513976627241, 48, 110709739224970559525,
  73809723002139443237, 8, 12, 36893558792114931237, 36893559754187605533, 4, 36893542162001560605, 36893542162001560585, 8, 16,
  36893577346373649941, 73798235983249211405, 12, 36893559204431791633, 36893559204431791637, 8, 16, 36893577346373649941, 73798235983249211405, 12,
  36893559204431791633, 36893559204431791637, 8, 16, 36893577346373649941, 73798235983249211405, 12, 36893559204431791633, 36893559204431791637, 8,
  16, 36893577346373649941, 73798235983249211405, 12, 36893559204431791633, 36893559204431791637, 8, 16, 36893577346373649941, 73798235983249211405,
  12, 36893559204431791633, 36893559204431791637, 12, 8, 36893559204431791637, 36893559204431791633, 16, 36893576796617836561, 36893576796617836565,
  12, 8, 36893559204431791637, 36893559204431791633, 16, 36893576796617836561, 36893576796617836565, 12, 8, 36893559204431791637,
  36893559204431791633, 16, 36893576796617836561, 36893576796617836565, 12, 8, 36893559204431791637, 36893559204431791633, 16, 36893576796617836561,
  36893576796617836565, 12, 8, 36893559204431791637, 36893559204431791633, 16, 36893576796617836561, 36893576796617836565, 20, 28,
  36893630122931784725, 73800488195379822617, 28, 36893630122931784741, 36893629573175970853, 20, 28, 36893630122931784725, 73800488195379822617, 28,
  36893630122931784741, 36893629573175970853, 32, 20, 36893647715117829141, 36893647715117829153, 20, 73800488332818776089, 36893647165362015269, 44,
  52, 36893735126292240421, 36893735676048054309, 40, 36893700491675964945, 36893700491675964949, 44, 52, 36893735126292240421, 36893735676048054309,
  40, 36893700491675964945, 36893700491675964949, 16, 12, 73798235983249211409, 73798235983249211409, 8, 36893577346373649941, 36893577346373649957,
  16, 12, 73798235983249211409, 73798235983249211409, 8, 36893577346373649941, 36893577346373649957]

theorem side4_l1_run4 : run .l1 2 9 1 side4Env [] side4_l1_4 (side4Paths4.map fun P => ⟨[P], []⟩) = true := Run.run_one (by decide +kernel)

def side4_l1_5 : List ℕ := [
  16, 12, 73798235983249211409, 73798235983249211409, 8, 36893577346373649941, 36893577346373649957, 16, 12, 73798235983249211409,
  73798235983249211409, 8, 36893577346373649941, 36893577346373649957, 16, 12, 73798235983249211409, 73798235983249211409, 8, 36893577346373649941,
  36893577346373649957, 16, 24, 36893612530745739809, 36893613080501553701, 32, 36893648264873642549, 73807243732260028437, 16, 24,
  36893612530745739809, 36893612805623646757, 32, 36893647989995735593, 73807243732260028437, 36, 1513976627241, 48, 110709739224970559525,
  73809723002139443237, 16, 32, 73807243732260028437, 36893648264873642529, 32, 73807243732260028437, 36893648264873642549, 36, 1513976627241, 48,
  110709739224970559525, 73809723002139443237, 16, 28, 36893630122931784225, 36893630672687598117, 32, 73807243732260028437, 36893648264873642549,
  12, 4, 36893559754187605025, 36893559754187605045, 16, 20, 36893593976487021093, 36893594938559695389, 36893577896129464357, 12, 4,
  36893559754187605025, 36893559754187605037, 16, 20, 36893593976487021093, 36893594938559695389, 36893578033568417829, 36, 1513976627241, 48,
  110709739224970559525, 73809723002139443237, 12, 4, 36893559754187605025, 36893559754187605045, 16, 20, 36893593976487021093, 36893594938559695389,
  36893577896129464357, 36, 1513976627241, 48, 110709739224970559525, 73809723002139443237, 4, 12, 36893559754187605025, 36893560303943418917, 12,
  36893559754187605045, 16, 20, 36893593976487021093, 36893594938559695389, 36893577896129464357, 4, 8, 36893541612245746709, 36893542436879467541,
  8, 36893541612245746705, 36893542436879467537, 4, 8, 36893541612245746709, 36893542436879467541, 8, 36893541612245746705, 36893542436879467537, 4,
  8, 36893541612245746709, 36893542436879467541, 8, 36893541612245746705, 36893542436879467537, 4, 8, 36893541612245746709, 36893542436879467541, 8,
  36893541612245746705, 36893542436879467537, 40, 28, 14170270177773553192981, 110705235755258282017, 4, 16, 1813795999031681981546505,
  73798235983249211401, 8, 36893541612245746705, 36893541612245746709, 4, 16, 36893577346373649429, 73798235983249211401, 8, 36893541612245746705,
  36893541612245746709, 4, 16, 36893577346373649429, 73798235983249211401, 8, 36893541612245746705, 36893541612245746709, 4, 16,
  36893577346373649429, 73798235983249211401, 8, 36893541612245746705, 36893541612245746709, 4, 16, 36893577346373649429, 73798235983249211401, 8,
  36893541612245746705, 36893541612245746709, 4, 16, 36893577346373649429, 73798235983249211401, 8, 36893541612245746705, 36893541612245746709, 4,
  16, 36893576934056789013, 73798235983249211401, 8, 36893541749684700173, 36893541612245746709]

theorem side4_l1_run5 : run .l1 2 9 1 side4Env [] side4_l1_5 (side4Paths5.map fun P => ⟨[P], []⟩) = true := Run.run_one (by decide +kernel)

def side4_l1_6 : List ℕ := [
  4, 16, 36893576934056789013, 73798235983249211401, 8, 36893541887123653641, 36893541612245746709, 28, 8, 4, 36893541612245746709,
  36893541887123653641, 110698479943500169229, 16, 4, 8, 36893541612245746709, 36893542436879467541, 8, 36893541887123653641, 36893542436879467537,
  9446174259459196780565, 4, 8, 36893541612245746709, 36893542436879467541, 8, 36893541887123653641, 36893542436879467537, 4, 8,
  36893541612245746709, 36893542436879467541, 8, 36893541887123653641, 36893542436879467537, 4, 8, 36893541612245746709, 36893542436879467541, 8,
  36893541887123653641, 36893542436879467537, 4, 8, 36893541612245746709, 36893542436879467541, 8, 36893541887123653641, 36893542436879467537, 4, 8,
  36893541612245746709, 36893542436879467541, 8, 36893541887123653641, 36893542436879467537, 4, 8, 36893541612245746709, 36893542436879467541, 8,
  36893541887123653641, 36893542436879467537, 8, 4, 36893541612245746709, 36893541887123653641, 4, 36893542436879467541, 36893542436879467537, 4, 8,
  36893541612245746709, 36893542436879467541, 8, 36893541612245746705, 36893542436879467537, 4, 8, 36893541612245746709, 36893542436879467541, 8,
  36893541612245746705, 36893542436879467537, 4, 8, 36893541612245746709, 36893542436879467541, 8, 36893541612245746705, 36893542436879467537, 4, 8,
  36893541612245746709, 36893542436879467541, 8, 36893541612245746705, 36893542436879467537, 20, 24, 36893611980989926421, 36893611980989926417, 24,
  73800488057940869145, 73800488057940869145, 4, 8, 36893541612245746709, 16, 36893577346373649957, 36893576796617836069, 8, 36893541612245746705,
  36893541612245746709, 8, 4, 36893541612245746709, 36893541612245746705, 16, 36893577346373649957, 36893576796617836069, 4, 8, 36893541612245746709,
  16, 36893577346373649957, 36893576796617836069, 8, 36893541612245746705, 36893541612245746709, 4, 8, 36893541612245746709, 16,
  36893577346373649957, 36893576796617836069, 8, 36893541612245746705, 36893541612245746709, 8, 4, 36893541612245746709, 36893541612245746705, 16,
  36893577346373649957, 36893576796617836069, 4, 8, 36893541474806793245, 36893541887123653661, 8, 36893542024562607137, 36893541887123653649, 4, 8,
  36893541474806793245, 36893541887123653661, 8, 36893542162001560593, 36893541887123653649, 4, 8, 36893541474806793245, 36893541887123653661, 8,
  36893542162001560593, 36893541887123653649, 4, 8, 36893541474806793245, 36893541887123653661, 8, 36893542162001560593, 36893541887123653649, 4, 8,
  36893541474806793245, 36893541887123653661, 8, 36893542162001560593, 36893541887123653649, 4, 8, 36893541474806793245, 36893541887123653661, 8,
  36893542162001560593, 36893541887123653649, 4, 8, 36893541612245746721, 36893542162001560605, 8, 36893541612245746705, 36893542162001560585, 24,
  864814281273638917, 36, 73809617445793562629, 1513976627241, 4, 8, 36893541474806793245, 36893541887123653661, 8, 36893541612245746705,
  36893541887123653649]

theorem side4_l1_run6 : run .l1 2 9 1 side4Env [] side4_l1_6 (side4Paths6.map fun P => ⟨[P], []⟩) = true := Run.run_one (by decide +kernel)

def side4_l1_7 : List ℕ := [
  4, 8, 36893541474806793245, 36893541887123653661, 8, 36893541612245746705, 36893541887123653649, 4, 8, 36893541474806793245, 36893541887123653661,
  8, 36893541612245746705, 36893541887123653649, 4, 8, 36893541474806793245, 36893541887123653661, 8, 36893541612245746705, 36893541887123653649, 4,
  8, 36893541612245746721, 36893542162001560605, 8, 36893541612245746705, 36893542162001560585, 24, 864814281273638917, 36, 73809617445793562629,
  1513976627241, 24, 864814281273638917, 36, 73809617445793562629, 1513976627241, 8, 4, 36893542162001560597, 36893542162001560593, 12,
  36893559754187605521, 36893559204431791653, 8, 4, 36893542162001560597, 36893542162001560593, 12, 36893559754187605521, 36893559204431791653, 8, 4,
  36893542162001560597, 36893542162001560593, 12, 36893559754187605521, 36893559204431791653, 8, 4, 36893542162001560597, 36893542162001560593, 12,
  36893559754187605521, 36893559204431791653, 8, 4, 36893542162001560597, 36893542162001560593, 12, 36893559754187605521, 36893559204431791653, 4,
  16, 12, 73798235983249211409, 73798235983249211409, 36893577346373649429, 8, 36893542162001560593, 36893541612245746725, 4, 16,
  73798235983249211401, 36893577346373649429, 8, 36893542162001560593, 36893541612245746725, 4, 16, 73798235983249211401, 36893577346373649429, 8,
  36893542162001560593, 36893541612245746725, 4, 16, 73798235983249211401, 36893577346373649429, 8, 36893542162001560593, 36893541612245746725, 4,
  16, 73798235983249211401, 36893577346373649429, 8, 36893542162001560593, 36893541612245746725, 4, 8, 36893541612245746709, 36893542436879467541, 8,
  36893541612245746705, 36893542436879467537, 4, 8, 36893541612245746709, 36893542436879467541, 8, 36893541612245746705, 36893542436879467537, 4, 8,
  36893541612245746709, 36893542436879467541, 8, 36893541612245746705, 36893542436879467537, 4, 8, 36893541612245746709, 36893542436879467541, 8,
  36893541612245746705, 36893542436879467537, 8, 4, 36893541612245746709, 36893541612245746705, 12, 36893559204431791633, 36893559204431791637, 4, 8,
  36893541612245746709, 36893542436879467541, 8, 36893541612245746705, 36893542436879467537, 4, 8, 36893541612245746709, 36893542436879467541, 8,
  36893541612245746705, 36893542436879467537, 4, 8, 36893541612245746709, 36893542436879467541, 8, 36893541612245746705, 36893542436879467537, 4, 8,
  36893541612245746709, 36893542436879467541, 8, 36893541612245746705, 36893542436879467537, 8, 4, 36893541612245746709, 36893541612245746705, 12,
  36893559204431791633, 36893559204431791637, 4, 8, 36893541474806793245, 36893541887123653661, 8, 36893542024562607137, 36893541887123653649]

theorem side4_l1_run7 : run .l1 2 9 1 side4Env [] side4_l1_7 (side4Paths7.map fun P => ⟨[P], []⟩) = true := Run.run_one (by decide +kernel)

def side4_l1_8 : List ℕ := [
  4, 8, 36893541474806793245, 36893541887123653661, 8, 36893542162001560593, 36893541887123653649, 4, 8, 36893541474806793245, 36893541887123653661,
  8, 36893542162001560593, 36893541887123653649, 4, 8, 36893541474806793245, 36893541887123653661, 8, 36893542162001560593, 36893541887123653649, 4,
  8, 36893541474806793245, 36893541887123653661, 8, 36893542162001560593, 36893541887123653649, 4, 8, 36893541474806793245, 36893541887123653661, 8,
  36893542162001560593, 36893541887123653649, 4, 8, 36893541612245746721, 36893542162001560605, 8, 36893541612245746705, 36893542162001560585, 24,
  864814281273638917, 36, 73809617445793562629, 1513976627241, 4, 8, 36893541612245746721, 36893542162001560605, 8, 36893541612245746705,
  36893542162001560585, 24, 864814281273638917, 36, 73809617445793562629, 1513976627241, 24, 864814281273638917, 36, 73809617445793562629,
  1513976627241, 20, 24, 73800488057940869145, 73800488057940869145, 24, 36893612393306786849, 36893612393306786849, 20, 24, 73800488057940869145,
  73800488057940869145, 24, 36893612530745740317, 36893612393306786849, 20, 24, 73800488057940869145, 73800488057940869145, 24, 36893612530745740317,
  36893612393306786849, 20, 24, 73800488057940869145, 73800488057940869145, 24, 36893612530745740317, 36893612393306786849, 20, 24,
  73800488057940869145, 73800488057940869145, 24, 36893612530745740317, 36893612393306786849, 20, 24, 73800488057940869145, 73800488057940869145, 24,
  36893612530745740317, 36893612393306786849, 20, 24, 73800488057940869145, 73800488057940869145, 24, 36893612393306786849, 36893612393306786849, 20,
  32, 4722386925264757066777, 73800488332818776089, 56, 52, 36893753543112006701, 36893753543112006677, 44, 110707488104827846705,
  1813833180926127421259825, 40, 36, 110705235755258282025, 110705235755258282025, 36, 36893683174367826965, 36893683174367826989, 32, 36,
  36893665582181782061, 36893665582181782037, 28, 36893647989995737133, 36893647989995737109, 32, 36, 36893665582181782061, 36893665582181782037, 28,
  36893647989995737133, 36893647989995737109, 20, 4, 73800487920501915657, 40, 73800487921575985161, 9446462453824245204013, 40, 4,
  14170270088712129872921, 110705235068063514633, 4, 1813796287279650327691273, 1813796287279787808260105, 28, 20, 73800488195379822617,
  604465229354774168997933, 24, 604465231606573982748177, 604465231501020866481681, 20, 28, 36893630122931784725, 73800488195379822617, 28,
  36893630122931784741, 36893629573175970853, 20, 28, 36893630122931784725, 73800488195379822617, 28, 36893630122931784741, 36893629573175970853, 20,
  28, 36893630122931784725, 73800488195379822617, 28, 36893630122931784741, 36893629573175970853]

theorem side4_l1_run8 : run .l1 2 9 1 side4Env [] side4_l1_8 (side4Paths8.map fun P => ⟨[P], []⟩) = true := Run.run_one (by decide +kernel)

def side4_l1_9 : List ℕ := [
  20, 28, 36893630122931784725, 73800488195379822617, 28, 36893630122931784741, 36893629573175970853, 20, 32, 36893647715117829141,
  73800488332818776089, 32, 36893647715117829153, 36893647165362015269, 20, 32, 36893647715117829141, 73800488332818776089, 32, 36893647715117829153,
  36893647165362015269, 44, 48, 36893718358739916833, 36893718083862009885, 48, 36893718358739916821, 36893718083862009877, 44, 48,
  36893718083862009885, 36893718358739916833, 48, 36893718083862009877, 36893718358739916821, 20, 24, 36893612255867833373, 73802739857754619929, 24,
  36893612393306786849, 73802739857754619929, 20, 24, 36893612255867833373, 73802739857754619929, 24, 36893612530745740317, 73802739857754619929, 20,
  24, 36893612255867833373, 73802739857754619929, 24, 36893612530745740317, 73802739857754619929, 20, 24, 36893612255867833373, 73802739857754619929,
  24, 36893612530745740317, 73802739857754619929, 20, 24, 36893612255867833373, 73802739857754619929, 24, 36893612530745740317, 73802739857754619929,
  20, 24, 36893612255867833373, 73802739857754619929, 24, 36893612530745740317, 73802739857754619929, 12, 4, 36893559479309698077,
  36893559479309698093, 8, 36893559479309698589, 36893559616748652065, 4, 12, 36893559479309698077, 36893559754187605021, 12, 36893559479309698085,
  36893559754187605029, 4, 12, 36893559479309698077, 36893559754187605021, 12, 36893559479309698085, 36893559754187605029, 4, 12,
  36893559479309698077, 36893559754187605021, 12, 36893559479309698085, 36893559754187605029, 4, 12, 36893559479309698077, 36893559754187605021, 12,
  36893559479309698085, 36893559754187605029, 4, 12, 36893559479309698077, 36893559754187605021, 12, 36893559479309698085, 36893559754187605029, 36,
  1513976627241, 48, 110709739224970559525, 73809723002139443237, 16, 12, 36893577071495743517, 36893577071495743505, 20, 36893594663681788445,
  36893594251364928029, 16, 12, 36893577071495743517, 36893577071495743505, 20, 36893594663681788445, 36893594251364928029, 16, 12,
  36893577071495743517, 36893577071495743505, 20, 36893594663681788445, 36893594251364928029, 16, 12, 36893577071495743517, 36893577071495743505, 20,
  36893594663681788445, 36893594251364928029]

theorem side4_l1_run9 : run .l1 2 9 1 side4Env [] side4_l1_9 (side4Paths9.map fun P => ⟨[P], []⟩) = true := Run.run_one (by decide +kernel)

def side4_l1_10 : List ℕ := [
  8, 12, 36893559479309698589, 36893559479309698589, 24, 36893612805623645737, 73802739857754619917, 8, 12, 36893559479309698589,
  36893559479309698589, 24, 36893612805623645737, 73802739857754619917, 8, 12, 36893559479309698589, 36893559479309698589, 24, 36893612805623645737,
  73802739857754619917, 8, 12, 36893559479309698589, 36893559479309698589, 24, 36893612805623645737, 73802739857754619917, 8, 12,
  36893559479309698589, 36893559479309698589, 12, 36893559479309698589, 36893559616748652065, 8, 12, 36893559479309698589, 36893559479309698589, 12,
  36893559479309698589, 36893559754187605533, 8, 12, 36893559479309698589, 36893559479309698589, 16, 24, 36893612805623646749, 36893612255867832861,
  36893577071495743021, 8, 12, 36893559479309698589, 36893559479309698589, 16, 24, 36893612805623646749, 36893612255867832861, 36893577071495743021,
  8, 12, 36893559479309698589, 36893559479309698589, 16, 24, 36893612805623646749, 36893612255867832861, 36893577071495743021, 8, 12,
  36893559479309698589, 36893559479309698589, 16, 24, 36893612805623646749, 36893612255867832861, 36893577071495743021, 8, 12, 36893559479309698589,
  36893560029065512477, 16, 20, 36893595213437602333, 36893594663681788445, 36893577071495743021, 8, 12, 36893559479309698589, 36893560029065512477,
  16, 20, 36893595213437602333, 36893594663681788445, 36893577071495743021, 8, 12, 36893559479309698589, 36893560029065512477, 16, 20,
  36893595213437602333, 36893594663681788445, 36893577071495743021, 8, 12, 36893559479309698589, 36893560029065512477, 16, 20, 36893595213437602333,
  36893594663681788445, 36893577071495743021, 8, 12, 36893559479309698589, 36893560029065512477, 24, 73802739857754619917, 36893612805623645737, 8,
  12, 36893559479309698589, 36893560029065512477, 24, 73802739857754619917, 36893612805623645737, 8, 12, 36893559479309698589, 36893560029065512477,
  24, 73802739857754619917, 36893612805623645737, 8, 12, 36893559479309698589, 36893560029065512477, 24, 73802739857754619917, 36893612805623645737,
  8, 12, 36893559066992838173, 36893559479309698589, 16, 36893577071495743021, 20, 36893594663681788445, 36893594251364928029, 8, 12,
  36893559066992838173, 36893559479309698589, 16, 36893577071495743021, 20, 36893594663681788445, 36893594251364928029, 8, 12, 36893559066992838173,
  36893559479309698589, 16, 36893577071495743021, 20, 36893594663681788445, 36893594251364928029]

theorem side4_l1_run10 : run .l1 2 9 1 side4Env [] side4_l1_10 (side4Paths10.map fun P => ⟨[P], []⟩) = true := Run.run_one (by decide +kernel)

def side4_l1_11 : List ℕ := [
  8, 12, 36893559066992838173, 36893559479309698589, 16, 36893577071495743021, 20, 36893594663681788445, 36893594251364928029, 36, 1513976627241, 48,
  110709739224970559525, 73809723002139443237, 36, 1513976627241, 48, 110709739224970559525, 73809723002139443237, 28, 32, 73804991932446277665,
  73804991932446277665, 24, 36893630672687599145, 32, 36, 40, 36893683449245733929, 44, 48, 110709739629763690545, 36893718221300963353,
  36893701041431778857, 36893665444742828597, 36893647852556783629, 44, 48, 110707487829949939761, 110707487829949939761, 48, 36893718221300963353,
  36893717396667242525, 28, 32, 36, 36893664620109107741, 36893665444742828569, 73804991932446277665, 32, 36, 36893664620109107741,
  36893665444742828569, 36893647852556783629, 28, 8, 73804991795007324173, 4, 4722373467242449863713, 9447038862625647625225, 48, 52,
  110709739767202644021, 110709739767202644021, 8, 1813870650751881858318349, 1813870650752019338887181, 40, 44, 36893699804481197597,
  36893700216798058013, 48, 52, 110709739767202644021, 110709739767202644021, 604466681695285252135453, 28, 32, 36893646753045155877,
  73807243732260028449, 24, 36893630672687599141, 36893630122931785225, 28, 32, 36893646753045155877, 73807243732260028449, 24, 36893630810126552613,
  36893630122931785225, 8, 20, 36893594938559694361, 36893595075998647845, 4, 36893542711757374501, 36893542162001560585, 8, 20,
  36893594938559694361, 36893595075998647845, 4, 36893542849196327973, 36893542162001560585, 8, 16, 36893577346373649953, 36893577896129463845, 4,
  36893542711757374501, 36893542162001560585, 8, 16, 36893577346373649953, 36893577621251556901, 4, 36893542849196327973, 36893542162001560585, 8,
  16, 36893577346373649953, 36893577896129463845, 4, 36893542711757374501, 36893542162001560585, 8, 16, 36893577346373649953, 36893577621251556901,
  4, 36893542849196327973, 36893542162001560585, 8, 24, 73802739857754619917, 36893611980989924893, 24, 73802739857754619917, 36893613080501552693,
  36, 1513976627241, 48, 110709739224970559525, 73809723002139443237, 36, 1513976627241, 48, 110709739224970559525, 73809723002139443237, 8, 24,
  73802739857754619917, 36893611980989924893, 24, 73802739857754619917, 36893613080501552693]

theorem side4_l1_run11 : run .l1 2 9 1 side4Env [] side4_l1_11 (side4Paths11.map fun P => ⟨[P], []⟩) = true := Run.run_one (by decide +kernel)

def side4_l2_0 : List ℕ := [
  32, 36, 36893664482670154285, 36893665444742828585, 36, 36893664482670154253, 36893665582181782029, 12, 8, 9445885958163471009333, 0,
  1209073402645061761500677, 1209073402645061761500677, 16, 36, 4722377988571719010321, 604464382537180066613265, 604464360019308598003725, 12, 8,
  9445885958163471009333, 9445885958163471009317, 32, 28, 48, 1813720791240210923917365, 1813720791240210923917365, 110700731880752873505, 36,
  604465823689059751432721, 1813721923912971913330725, 12, 8, 9445885958163471009333, 9445885958163471009309, 16, 36893576521739929613, 28, 32,
  4722386960586584887329, 110698480080939122721, 1209075699498601379266577, 12, 8, 9445885958163471009333, 9445885958163471009309, 16,
  36893576521739929613, 28, 32, 4722386960586584887329, 110698480080939122721, 1209075699498601379266577, 12, 8, 9445885958163471009333,
  9445885958163471009309, 16, 36893576521739929613, 28, 36, 40, 36893682074856199181, 44, 48, 1813683906829631495346209, 36893717808984102933,
  36893700216798058005, 110698480218378076193, 1209075699498601379266577, 12, 8, 9445885958163471009333, 9445885958163471009309, 16,
  36893576521739929613, 28, 14169405380132057120785, 1209075699498601379266577, 12, 8, 9445885958163471009333, 9445885958163471009309, 16,
  36893576521739929613, 28, 40, 44, 48, 36893717259228289037, 52, 36893735401170147861, 1813683909099023495076385, 36893699667042244109,
  110698480355817029665, 1209075699498601379266577, 44, 48, 36893717259228289037, 52, 36893734851414333965, 12, 8, 9445885958163471009329,
  9445885958163471009309, 28, 1813683909081431309031969, 24, 1813685030389916039646769, 1209075699551377937399837, 40, 36893700216798058005,
  36893700216798058033, 12, 8, 9445885958163471009329, 9445885958163471009309, 16, 36893576521739929613, 28, 4722377953387330144289, 24,
  1813685030389916039646769, 1209075699551377937399837, 12, 8, 9445885958163471009333, 9445885958163471009309, 16, 36893576521739929613, 28, 44, 48,
  1813683906829631495346209, 36893717808984102933, 48, 604466686198884879570973, 1813683906741670565124145, 1209075699498601379266577, 12, 8,
  9445885958163471009333, 9445885958163471009317, 16, 36893576521739929613, 20, 36893594526242834969, 24, 28, 36893629710614924825, 32,
  110700731880752873505, 36, 604465823689059751432721, 1813721923912971913330725, 36893611706112019469, 28, 32, 36893646890484109325,
  36893648264873644045, 32, 36893646890484109365, 36893648264873644085, 24, 28, 36893630672687599117, 36893629298298064397, 28, 36893630672687599157,
  36893629298298064437, 20, 24, 36893613080501554189, 36893611706112019469, 24, 36893613080501554229, 36893611706112019509, 20, 24,
  36893613080501554189, 36893611706112019469, 24, 36893613080501554229, 36893611706112019509, 48, 44, 36, 1813757693805926350329897, 12, 8,
  9445885958163471009333, 9445885958163471009313, 32, 1813758817401395249943097, 1209076276047314629689381, 604466686234069251660305, 52,
  604466976610692100856365, 36, 110702984367761391657, 12, 8, 9445885958163471009333, 9445885958163471009313, 32, 1813758817401395249943097,
  1209076276047314629689381, 12, 8, 9445885958163471009333, 9445885958163471009317, 32, 52, 56, 14169693786289484078097, 14169693787802310810637, 28,
  1813720791240210923917369, 48, 4, 8, 1813720777729412041802809, 604463806182107547573261, 0, 604463517951731395795981, 1813720775565573158339109,
  1813720802499209992346169, 36, 604465823689059751432721, 1813721923912971913330725, 20, 24, 36893613080501554189, 36893611706112019469, 24,
  36893613080501554229, 36893611706112019509, 20, 24, 36893613080501554189, 36893611706112019469, 24, 36893613080501554229, 36893611706112019509, 12,
  8, 9445885958163471009333, 9445885958163471009317, 32, 24, 20, 36893611706112019469, 110700731468436013073, 110700731880752873501, 36,
  604465823689059751432721, 1813721923912971913330725, 24, 28, 36893630672687599117, 36893629298298064397, 28, 36893630672687599157,
  36893629298298064437, 28, 32, 36893646890484109325, 36893648264873644045, 32, 36893646890484109365, 36893648264873644085, 12, 8,
  9445885958163471009333, 9445885958163471009313, 36, 44, 40, 1813757691536534350599721, 604466393500093472511525, 110702984092883484713, 32,
  1813758817401395249943097, 1209076276047314629689381, 36, 40, 36893683174367826973, 36893682074856199181, 32, 36893665032425968149,
  36893665032425968173, 28, 12, 8, 9445885958163471009333, 9445885958163471009305, 24, 36893612255867832349, 14169405415316429209617, 12, 8,
  9445885958163471009333, 9445885958163471009305, 24, 36893612255867832349, 36893629298298064397, 12, 8, 9445885958163471009333,
  9445885958163471009305, 24, 36893612255867832349, 28, 36, 44, 48, 36893717259228289037, 52, 36893735401170147857, 1813683909099023495076385,
  36893700216798057501, 110698480218378076193, 36893629298298064397, 12, 8, 9445885958163471009329, 9445885958163471009305, 20, 36893594663681787933,
  24, 36893612255867832349, 28, 36, 40, 36893683311806780445, 36893682074856199181, 110698480218378076193, 36893629298298064397, 12, 8,
  9445885958163471009329, 9445885958163471009305, 24, 36893612255867832349, 28, 36, 40, 36893683311806780445, 36893682074856199181,
  110698480218378076193, 36893629298298064397, 20, 16, 36893594663681788461, 36893594113925974541, 24, 110696228006247464985, 36893612805623647261]

theorem side4_l2_run0 : run .l2 2 65 11 side4Env [] side4_l2_0 (side4Paths0.map fun P => ⟨[P], []⟩) = true := Run.run_one (by decide +kernel)

def side4_l2_1 : List ℕ := [
  12, 8, 9445885958163471009333, 9445885958163471009305, 20, 36893594663681787933, 24, 110696228006247464985, 1209075411303409591255065, 12, 8,
  9445885958163471009333, 9445885958163471009305, 20, 36893594663681787933, 24, 110696228006247464985, 1209075411303409591255065, 12, 8,
  9445885958163471009329, 9445885958163471009305, 20, 36893594663681787933, 24, 110696228006247464985, 36893612943062600733, 12, 8,
  9445885958163471009329, 9445885958163471009305, 20, 36893594663681787933, 24, 110696228006247464985, 36893612943062600733, 28, 32, 36,
  1813683897769655682469921, 110698480218378076193, 110698480080939122721, 24, 12, 8, 9445885958163471009333, 9445885958163471009305,
  36893612255867832349, 36893629298298064397, 28, 32, 36, 44, 48, 36893717259228289037, 52, 36893735401170147857, 1813683897840024426647585,
  36893700216798057501, 110698480218378076193, 110698480080939122721, 24, 12, 8, 9445885958163471009333, 9445885958163471009305,
  36893612255867832349, 36893629298298064397, 28, 32, 36893648127434690589, 110698480080939122721, 24, 12, 8, 9445885958163471009329,
  9445885958163471009305, 36893612255867832349, 36893629298298064397, 12, 8, 9445885958163471009329, 9445885958163471009305, 24,
  36893612255867832349, 28, 32, 36893648127434690589, 110698480080939122721, 36893629298298064397, 12, 8, 9445885958163471009325,
  9445885958163471009305, 24, 36893612255867832349, 28, 32, 36893647989995737117, 110698480080939122721, 36893629298298064397, 12, 8,
  9445885958163471009333, 9445885958163471009305, 24, 60, 56, 77371847369640827830607901, 9903596463609028368023160841, 56,
  1813647019991330392645181, 14169117343680120757773, 28, 56, 29714811075023382068798164497, 60, 9903596463609028368023160841,
  1813648137042230191259709, 36893629298298064397, 24, 48, 52, 1813647015487730765273653, 1813647015610876067584569, 52, 36893735401170147857,
  1813647015610876067584541, 44, 48, 36893717259228289037, 52, 36893735401170147857, 8, 604466974358892287165977, 604466974358892287165965, 40,
  36893699667042244109, 604466384387341101504009, 40, 44, 48, 36893717259228289037, 52, 36893734851414333965, 36893736088364915229,
  36893700216798058001, 36, 36893682074856199181, 36893682624612013105, 56, 52, 36893752993356192817, 36893752443600378893, 52, 12, 8,
  9445885958163471009329, 9445885958163471009305, 9903591704342301951510120457, 36893753680550960157, 36, 40, 36893683174367826973,
  36893682074856199181, 40, 604466105164164204467717, 36893682624612013101, 40, 36, 36893682624612013073, 36893682624612013101, 44, 48,
  36893718358739916829, 36893717259228289037, 36893699667042244109, 24, 4, 8, 14169117114981702173753, 52, 56, 14169117326087934712845,
  14169117327050007387149, 604463806217291919662093, 0, 52, 56, 14169117326087934712845, 14169117327050007387149, 604463517986915767884813,
  4722371233172252787229, 12, 8, 9445885958163471009333, 9445885958163471009305, 28, 604465247228305300524561, 1813648136901492702904349, 36, 40,
  36893683174367826973, 36893682074856199181, 32, 36893664482670154253, 36893665032425968173, 48, 52, 36893735401170147885, 24,
  1813647015610876067584569, 12, 8, 9445885958163471009325, 9445885958163471009305, 28, 604465242724705673154065, 1813648136901492702904349, 52,
  36893734851414333965, 36893735950925961757, 48, 52, 36893735950925961757, 36893734851414333965, 52, 604466976610692100856841, 36893735401170147885,
  32, 44, 14170558424641406243365, 56, 1209261320036627512033329, 1813834045617255901560881, 28, 9447327198692354560045, 73807243732260028449, 24,
  20, 36, 110702983405688717337, 1813759682039608718589977, 36, 14169981875928155819037, 1813759682039471254667289, 20, 9446750702480801139749,
  73802739857754619929, 16, 12, 32, 14169693610367623628821, 1813722212055387143208977, 36893576796617836565, 12, 52, 1209110298560930863122489,
  1209110298560930863122489, 32, 48, 28, 1813720791240210923917365, 110700731880752873505, 1209110298543338677078033, 9446174205855899060261, 16, 12,
  28, 32, 4722386837441282576417, 110698480080939122721, 1813685318567239724040209, 36893577071495743505, 28, 32, 4722386837441282576417,
  110698480080939122721, 73798236395566071829, 16, 12, 28, 32, 4722386837441282576417, 110698480080939122721, 1813685318567239724040209,
  36893577071495743505, 28, 32, 4722386837441282576417, 110698480080939122721, 73798236395566071829, 16, 12, 28, 36, 40, 36893682349734106133, 44,
  48, 1813683906829631495346209, 36893717808984102933, 36893700216798058005, 110698480218378076193, 1813685318567239724040209, 36893577071495743505,
  28, 12, 36, 40, 36893682349734106133, 44, 48, 1813683906829631495346209, 36893717808984102933, 36893700216798058005, 110698480218378076193,
  9446174206269247719453, 73798236395566071829, 16, 12, 28, 14169405379991463528469, 1813685318567239724040209, 36893577071495743505, 28, 44,
  73798236946395824161, 110698480493255983137, 73798236395566071829, 16, 12, 28, 40, 44, 48, 36893717534106195989, 52, 36893735401170147861,
  1813683909099023495076385, 36893700216798058001, 110698480355817029665, 1813685318567239724040209, 36893577071495743505, 28, 40, 44, 48,
  36893717534106195989, 52, 36893735401170147861, 1813683909099023495076385, 36893700216798058001, 110698480355817029665, 73798236395566071829, 44,
  48, 36893717534106195989, 52, 36893735401170147857, 28, 1813683909081431309031969, 16, 12, 1813685318567239724040209, 36893577071495743505,
  73798236395566071829, 40, 36893700216798058005, 36893700216798058033]

theorem side4_l2_run1 : run .l2 2 65 11 side4Env [] side4_l2_1 (side4Paths1.map fun P => ⟨[P], []⟩) = true := Run.run_one (by decide +kernel)

def side4_l2_2 : List ℕ := [
  16, 12, 28, 14169405379991463528469, 1813685318567239724040209, 36893577071495743505, 28, 56, 52, 14169405556601525378097, 36893752993356192785,
  52, 604467267128052438408725, 1813683911368415494806561, 73798236395566071829, 16, 12, 28, 48, 44, 1813683906829631495346209,
  604466686198884879570973, 44, 36893717808984102933, 1813683906741670565124145, 1813685318567239724040209, 36893577071495743505, 12, 52,
  1209110298560930863122489, 28, 44, 48, 1813683906829631495346209, 36893717808984102933, 48, 604466686198884879570973, 1813683906741670565124145,
  73798236395566071829, 9446174206269247719453, 36, 40, 24, 14170270176673060099101, 110705235754184278057, 604466105252125134689825, 40,
  110705235755258282025, 24, 1209187244759725233340457, 9446750772161335530541, 36, 40, 4722391376225298813993, 110702983955444531241, 24, 40,
  1209186956529211609317417, 1813759682109839998844969, 40, 73802740407510433833, 9446750773262936375337, 36, 40, 4722391376225298813993,
  110702983955444531241, 24, 40, 1209186956529211609317417, 1813759682109839998844969, 40, 73802740407510433833, 9446750773262936375337, 36, 52, 48,
  604466974429261031348761, 1813757696057726164015657, 48, 14169982000036520663581, 110702984367761391669, 24, 44, 1209186956546803795361833,
  1813759682127432184889385, 4, 8, 4722373396873697297437, 73802739307998806025, 8, 1209184080822519858201609, 9446750632112056960037, 4, 8, 36,
  14169981806522474169373, 24, 1813759681969102510489609, 4722373396873697297437, 24, 604463790419508851772957, 73802739307998806025, 8, 36,
  110702982855932903433, 604463797122131734696965, 36, 4722373361826789327913, 24, 1209186956388611584884745, 9446750632112056960037, 4, 8, 24, 36,
  14169981806522474169373, 1813759681969102510489609, 4722373396873697297437, 24, 604463790419508851772957, 73802739307998806025, 8, 36,
  110702982855932903433, 604463797122131734696965, 24, 36, 4722373361826789327913, 1209186956388611584884745, 9446750632112056960037, 4, 8,
  36893541612245746725, 36893542162001560613, 8, 604463779160509783344165, 36893542162001560597, 4, 8, 36893541887123653665, 36893542162001560609, 8,
  36893541887123653653, 36893542162001560597, 16, 12, 24, 604464362411708461092357, 604464362411845900045889, 604464362411845900044809, 12, 28,
  73804991382690463761, 604464369167245341102089, 24, 1456932209079618077, 604464367003406457637405, 24, 16, 73802739857754619925, 20,
  1209184089917680043166741, 73802739857754619929, 28, 40, 14170270176673060098077, 1209187244759587761094689, 40, 110705235755258282017,
  1209187244759725233340449, 28, 32, 4722386837303843622945, 73804991932446277665, 40, 16, 12, 14170270071395803203613, 604464362411845900044809, 20,
  24, 1813794573748090523618329, 604464941106805831240725, 604464650554261121600005, 32, 1209224138247735188586533, 1209224138212688280420385, 16,
  12, 40, 14170270071395803203613, 24, 73802739857754619925, 28, 1209187244759587761094689, 1209187244759725233340449, 604464362411845900044809, 20,
  40, 4722380117226238773785, 24, 1209184087665880229480981, 28, 1209187244759587761094689, 1209187244759725233340449, 604464650554261121600005, 8,
  16, 20, 36893595213437602345, 24, 36893612530745740325, 36893611980989926437, 36893577346373649957, 4, 36893542162001560613, 36893542162001560597,
  8, 4, 36893541887123653665, 36893541887123653653, 4, 36893542162001560609, 36893542162001560597, 8, 4, 36893541887123653665, 36893541887123653653,
  4, 36893542162001560609, 36893542162001560597, 48, 52, 4722398166809137125941, 4722398061256020859445, 4, 8, 32, 36, 604465801153469504033333,
  1209261608179180205834277, 4722373308912783852581, 36893542162001560613, 8, 604463779160509783344165, 32, 36, 604465801153469504033333,
  1209261608179180205834277, 1209257867921960015496201, 44, 32, 14170558424641406243365, 4, 8, 4722373308912783852581, 36893542162001560613, 8,
  604463779160509783344165, 1209257867921960015496201, 48, 36893718083862009893, 32, 1813834045582071529472049, 9447327269474489925681, 4, 8,
  36893541474806793253, 36893542162001560613, 8, 36, 1209294761286962140677129, 9903534558067551055382713349, 36893542162001560593, 24, 32,
  73807243732260028445, 36, 40, 36893682212295152677, 36893682899489920037, 36893665857059689013, 20, 36893612530745740325, 36893612530745740305, 24,
  28, 36893630122931785253, 32, 36893647715117830181, 36893647027923062821, 20, 36893612530745740325, 36893612530745740305, 24, 32,
  73807243732260028445, 36, 48, 52, 4722398166809137125941, 4722398061256020859445, 36893718083862008869, 36893665857059689013, 20,
  36893612530745740325, 36893612530745740305, 24, 20, 36893612530745740309, 36893612530745740325, 28, 36893629435737017893, 36893630122931785253, 24,
  20, 36893612530745740309, 36893612530745740325, 28, 36893629435737017893, 36893630122931785253]

theorem side4_l2_run2 : run .l2 2 65 11 side4Env [] side4_l2_2 (side4Paths2.map fun P => ⟨[P], []⟩) = true := Run.run_one (by decide +kernel)

def side4_l2_3 : List ℕ := [
  20, 24, 36893612530745740305, 604464941159582389374001, 24, 36893612530745740325, 36893611843550972965, 24, 20, 36893612530745740305,
  36893612530745740325, 32, 73807243732260028445, 36, 40, 36893682212295152677, 36893682899489920037, 36893665857059689013, 8, 4, 44,
  14170558266175265965101, 24, 56, 1209187533060332657049649, 1813833469156503581360177, 12, 9446750649291926144557, 73802739445437759501,
  604463779195694155432989, 12, 604464071929669934581805, 24, 44, 4722375683995363968529, 56, 1209187533060332657049649, 1813833469156503581360177,
  4722375683857883072017, 24, 40, 36, 14170270176673060099101, 110705235755258282025, 36, 1209187244759587761094697, 1209187244759725233340457, 8,
  40, 12, 14170270053666178205229, 73802739445437759501, 36, 73802740407510433833, 9446750772161335530541, 12, 604464071929669934581805,
  4722375683857883072017, 44, 8, 4, 232170426633209209040279577, 1813831458070709021967369, 12, 604464071929669934581805, 1813831460498430696097297,
  24, 48, 604466686269253623749165, 1813833469121319209271345, 48, 604466686269253623749165, 9446750808722186371121, 24, 8, 12,
  604464071929669934583341, 604464078685069375639069, 12, 604464071929669934581805, 604464078685069375637533, 8, 12, 77371401198008152048733725,
  73802739445437759501, 12, 604464071929669934581805, 1209184083162280602109457, 28, 24, 36893630397809692205, 44, 232170428096720633707564577, 56,
  1209224426548480084541489, 1813833757386879741460529, 32, 44, 8, 12, 14170558284042329916973, 73804991245251510285, 12, 604464071929669934581805,
  1209220976668020215645713, 9447038968729593970721, 73804991932446277665, 28, 40, 36, 14170270176673060099105, 110705235755258282025, 36,
  1209224138247735188586537, 1209224138247872652509225, 8, 40, 12, 14170270053666178205229, 73804991245251510285, 1209220992483395469578285, 12,
  604464071929669934581805, 1209220976668020215645713, 28, 44, 24, 29717814796391551253753567265, 32, 36, 40, 110707487692510986285,
  110707487555072032809, 110707487417633079333, 14170558372555164221473, 48, 604466686269253623749165, 1813833757351695369371697, 40,
  4722391446456587259937, 73804992207324184609, 28, 40, 32, 110705235480380375073, 14170270142179012444193, 32, 1209224138247735188586533,
  1209224138212688280420385, 40, 32, 110705235479306436641, 73804991932446277665, 9447039002537495629869, 8, 4, 44, 14170558266175265965101, 28, 12,
  9447038879668077856301, 73804991245251510285, 56, 1209224426548480084541489, 1813833757386879741460529, 604463779195694155433005, 12,
  604464071929669934581805, 28, 1209220976668020215645713, 44, 4722375683995363968529, 56, 1209224426548480084541489, 1813833757386879741460529, 40,
  36, 28, 44, 110705235892697235501, 8, 12, 14170270053666178205229, 73804991245251510285, 12, 604464071929669934581805, 1209220976668020215645713,
  14170270176673060099105, 110705235755258282025, 28, 9447039003776527106081, 36, 1209224138247735188586537, 1209224138247872652509225, 44, 40,
  110707487692510986285, 28, 73804992207324184609, 14170558407739536310305, 48, 604466686269253623749165, 28, 40, 4722391446456587259937,
  73804992207324184609, 1813833757351695369371697, 8, 12, 28, 1209220976597651471468065, 604464071929669934583845, 28, 73804991245251510285,
  604464080936869189324809, 12, 604464071929669934581805, 28, 1209220976668020215645713, 604464080919277003278361, 24, 8, 12, 9446750649291926144557,
  73802739445437759501, 12, 604464071929669934581805, 4722375683857883072017, 44, 8, 4, 14170558266175265965101, 604463779195694155433005, 12,
  604464071929669934581805, 4722375683995363968529, 56, 1209187533060332657049649, 1813833469156503581360177, 40, 24, 8, 12, 14170270053666178205229,
  73802739445437759501, 12, 604464071929669934581805, 4722375683857883072017, 28, 36, 14170270176673060099101, 110705235755258282025,
  36893630397809692205, 24, 20, 73802739857754619929, 9446750701792591350829, 28, 36893683174367825949, 36893630397809692205, 44, 24, 8, 4,
  232170426633209209040279577, 1813831458070709021967369, 12, 604464071929669934581805, 1813831460498430696097297, 8, 4, 232170426633209209040279577,
  1813831458070709021967369, 12, 604464071929669934581805, 1813831460498430696097297, 24, 20, 73802739857754619929, 9446750701792591350833, 48,
  604466686269253623749165, 1813833469121319209271345, 24, 20, 73802739857754619929, 40, 73802739858828623897, 9446750701792591350829, 40, 28,
  14170270176673060098077, 110705235755258282017, 28, 1209187244759587761094689, 1209187244759725233340449, 12, 8, 24, 604464071894485562494501, 16,
  73802739582876712977, 1209184085378896043706397, 604464071894485562492961, 8, 24, 604464078649885003550237, 73802739445437759501, 24,
  604464078649885003548701, 1209184083162280602109457, 8, 12, 36893559204431791653, 36893559754187605541, 4, 36893542162001560613,
  36893542162001560597, 8, 12, 36893559204431791653, 36893559754187605541, 4, 36893542162001560613, 36893542162001560597, 8, 4, 36893541887123653665,
  36893541887123653653, 4, 36893542162001560609, 36893542162001560597, 16, 48, 52, 4722398166809137125941, 4722398061256020859445, 12,
  36893577896129464373, 8, 36893559754187605541, 32, 36, 604465801153469504033333, 1209261608179180205834277, 1209257870173759829181969, 20,
  36893594251364928037, 36893594938559695397, 16, 12, 36893577621251557417, 8, 36893559754187605541, 32, 44, 14170558424641406243365, 48,
  36893718083862009893, 1813834045582071529472049, 1209257870173759829181969, 20, 36893594251364928037, 36893594938559695397, 8, 12,
  36893559066992838181, 36893559754187605541, 4, 36893542162001560613, 36893542162001560593]

theorem side4_l2_run3 : run .l2 2 65 11 side4Env [] side4_l2_3 (side4Paths3.map fun P => ⟨[P], []⟩) = true := Run.run_one (by decide +kernel)

def side4_l2_4 : List ℕ := [
  8, 12, 36893559066992838181, 36893559754187605541, 4, 36893542162001560613, 36893542162001560593, 8, 12, 36893559066992838181,
  36893559754187605541, 4, 36893542162001560613, 36893542162001560593, 8, 12, 36893559066992838181, 36893559754187605541, 4, 36893542162001560613,
  36893542162001560593, 52, 12, 8, 604464069642685748812821, 36893559204431791637, 8, 604464094342114955172869, 604464094412483699344917, 36,
  110702984367761391657, 8, 12, 604464069642685748812821, 604464094342114955172877, 16, 1813759105543672042946573, 20, 48, 604466958701846707637285,
  4722398096302886885945, 73798236120688164885, 32, 28, 52, 4722386837441290965049, 4722386837441290965049, 110700731880752873505, 36, 16,
  29716024723774681323008954901, 154766119648067246836683285, 36893664757548061205, 36, 40, 52, 14169981947809718342677, 110702984367761391657,
  110702983955444531241, 32, 16, 29716629186673229639601623593, 40, 52, 9903572779716768182014186513, 20, 48, 604466958701846707637285,
  4722398096302886885945, 73798236120688164885, 9446174312510632820777, 36893664757548061205, 52, 32, 48, 14169693770210124765717,
  1813720802587170922568249, 48, 16, 4, 8, 604463779090141039172625, 1813722212055524615454733, 604466976628284286895125, 1209110318827129186294293,
  9903586946527986414823281169, 32, 48, 110700732567947640885, 4722398096440359393849, 28, 604465535493995714059281, 24, 604465247263619562281997,
  16, 8, 4, 604463779090141039172629, 48, 20, 604466958701846707637285, 604466958631477963459601, 604466949624278708722709,
  1813722212055524615454733, 1209110305158000629780001, 52, 48, 32, 1813720802587170922568229, 28, 604465535493995714059269, 24,
  604465247263619562281989, 16, 8, 12, 36, 40, 44, 604466395681524542016037, 36893699941920151061, 44, 604466400185124169391109, 20,
  604466382241094404085797, 604466382170725659908133, 1813722212143348073431077, 604464094342114955172869, 1813722212055524615454733,
  1209110305158000629780001, 604466976645876472945669, 48, 36893735126292240917, 44, 40, 16, 604466395681524542016037, 9446174330376622708245,
  604466400185124169391117, 40, 36893699941920151061, 20, 604466382241094404085797, 604466382170725659908133, 20, 36, 24, 110702983405688717337,
  14169981876343610671129, 24, 1813759393809232566812697, 1209150062970832909893657, 24, 52, 4722382333704199474233, 4722382333704199474233,
  73800488057940869145, 20, 32, 1813720791187434365783065, 24, 1813722500321085139320857, 1209149774740456749793305, 24, 52, 4722382333704199474233,
  4722382333704199474233, 73800488057940869145, 20, 32, 36893647715117829141, 36, 40, 52, 14169981947809718342677, 110702984367761391657,
  110702983955444531241, 36893664757548061205, 24, 52, 4722382333704199474233, 4722382333704199474233, 73800488057940869145, 20, 32,
  14169693680736367807513, 24, 1813722500321085139320857, 1209149774740456749793305, 24, 52, 4722382333704199474233, 4722382333704199474233,
  73800488057940869145, 20, 32, 14169693680736367807513, 24, 1813722500321085139320857, 1209149774740456749793305, 24, 52, 4722382333704199474233,
  4722382333704199474233, 73800488057940869145, 52, 4, 48, 604466976716245217117201, 36, 1813757696075318350060089, 9903586946816216790974993425, 48,
  604466976716245217117205, 36, 1813757696075318350060089, 9903586946816216790974993425, 4, 48, 12, 604466954198247080265761,
  604466954127878336088085, 604466949694647452900373, 48, 12, 604466954198247080265761, 604466954127878336088085, 604466949694647452900389, 20, 32,
  28, 110700731879678935073, 110700731880752873505, 28, 73800488332818776097, 9446462506600803340325, 32, 14169693681151830982681, 28,
  1813722500338677325365273, 1209149774775641121882145, 20, 32, 36, 40, 73800488608770687017, 110702983955444531241, 9446462507702412509209,
  73800488332818776089, 36, 40, 14169981946712354848809, 110702983955444531241, 32, 1813759393844416938901529, 1209150063006017281982489, 52, 48, 12,
  604466976628284286896161, 604466976716245217118225, 32, 1813720802587170922568249, 9903586946527986414823281169, 48, 12, 604466954198247080265761,
  604466954127878336088085, 12, 604466954198247080270865, 604466954127878336093201, 52, 48, 32, 1813720802587170922568229, 40, 44,
  604466395681524542018069, 12, 604466377737494776711197, 604466377667126032533521, 44, 604466400167531983346701, 604466388926125100963877,
  604466976628284286901261, 32, 44, 110700732567947640881, 40, 110700732293069733933, 1813720797995610364974641, 40, 44, 604466395681524542018069,
  12, 604466377737494776711197, 604466377667126032533521, 44, 604466400167531983346705, 604466388926125100963877, 16, 52, 48,
  1209110318827129186294293, 36, 1813757696075318350060089, 9903586946816216790974993425, 12, 1209110298560930863122489, 1209110298560930863122449,
  12, 36, 52, 48, 1813757696075318350060073, 1813757696075318350060089, 110702984367761391657, 1813759105543534562377745, 604464360054492970092565,
  16, 20, 73798236120688164885, 32, 110700731880752873497, 24, 73798236258127118361, 28, 73798236395566071837, 9446174276224643239973, 12, 32, 20,
  14169693681561999772693, 110700731880752873497, 1813722212055387143208977, 604464360054492970092565]

theorem side4_l2_run4 : run .l2 2 65 11 side4Env [] side4_l2_4 (side4Paths4.map fun P => ⟨[P], []⟩) = true := Run.run_one (by decide +kernel)

def side4_l2_5 : List ℕ := [
  36, 40, 52, 1813757689319918909002793, 110702984367761391657, 110702983955444531241, 16, 20, 73798236120688164885,
  324568074934371087356258534364201, 12, 1813759105543534562377745, 604464360054492970092565, 16, 20, 73798236120688164885, 32,
  110700731880752873497, 9446174276224643238949, 12, 32, 20, 14169693681561999772693, 110700731880752873497, 1813722212055387143208977,
  604464360054492970092565, 16, 20, 73798236120688164885, 32, 110700731880752873497, 9446174276224643238949, 12, 32, 20, 14169693681561999772693,
  110700731880752873497, 1813722212055387143208977, 604464360054492970092565, 48, 52, 4722398166809137125941, 4722398061256020859445, 44,
  36893718083862009893, 32, 1209261608231956763967537, 9447327268098027821109, 32, 44, 14170558424641406243365, 48, 36893718083862009893,
  1813834045582071529472049, 16, 73807243732260028437, 44, 73807243733333966869, 48, 36893718083862009893, 9447327269474489925681, 48, 52,
  4722398166809137125941, 4722398061256020859445, 36, 4, 0, 1209294759035162326991401, 154789729154389842231099957, 0, 4722371215442652955177,
  9903530242398632535421688325, 32, 4, 19813146651340047203960885769, 0, 1813871227107081062252549, 9903530242398632535421688325,
  36893665857059689013, 32, 24, 73807243732260028445, 28, 1209257881432758897610781, 73807243732260028449, 36, 48, 52, 4722398166809137125941,
  4722398061256020859445, 36893718083862008869, 36893665857059689013, 40, 48, 52, 4722398166809137125941, 4722398061256020859445,
  36893718083862009381, 36, 73809495806951686185, 48, 52, 4722398166809137125941, 4722398061256020859445, 1209298501684919811047465, 32, 16,
  73807243732260028437, 48, 52, 4722398166809137125941, 4722398061256020859445, 36, 36893718083862008869, 9447327268098027820085, 36, 48, 52,
  4722398166809137125941, 4722398061256020859445, 36893718083862008869, 36893665857059689013, 48, 52, 4722398166809137125941, 4722398061256020859445,
  44, 36893718083862009893, 32, 1209261608231956763967537, 20, 73807243732260028441, 16, 36893594938559695397, 12, 8, 36893559754187605541,
  1209257870173759829181965, 36893577896129464373, 20, 32, 44, 14170558424641406243365, 48, 36893718083862009893, 1813834045582071529472049,
  73807243732260028441, 16, 36893594938559695397, 12, 8, 36893559754187605541, 32, 44, 14170558424641406243365, 48, 36893718083862009893,
  1813834045582071529472049, 1209257870173759829181965, 36893577621251557417, 12, 8, 36893559754187605541, 36, 1209294763679499442718221, 32,
  1173205432555210277, 36893665857059689013, 16, 36, 8, 1209294763573946326451753, 1209294763556354140407309, 20, 604464652929206237598769,
  36893594938559695397, 36893577896129464373, 32, 20, 73807243732260028441, 16, 36893594938559695397, 12, 8, 36893559754187605541,
  1209257870173759829181965, 36893577896129464373, 36, 48, 52, 4722398166809137125941, 4722398061256020859445, 36893718083862008869,
  36893665857059689013, 40, 48, 52, 4722398166809137125941, 4722398061256020859445, 36893718083862009381, 36, 73809495806951686185, 48, 52,
  4722398166809137125941, 4722398061256020859445, 1209298501684919811047465, 48, 52, 4722398166809137125941, 4722398061256020859445, 36,
  36893718083862008869, 32, 24, 73807243732260028445, 16, 36893612530745739813, 12, 8, 36893559754187605541, 1209257870173759829181965,
  36893577896129464373, 36893665857059689013, 4, 8, 36893541612245746733, 36893542436879467565, 8, 36893541612245746709, 36893542436879467541, 4, 8,
  36893541612245746733, 36893542436879467565, 8, 36893541612245746709, 36893542436879467541, 4, 8, 36893541612245746733, 36893542436879467565, 8,
  36893541612245746709, 36893542436879467541, 4, 8, 36893541612245746733, 36893542436879467565, 8, 36893541612245746709, 36893542436879467541, 40, 4,
  8, 4722373326642425627693, 110705234655746654217, 8, 36893541612245746709, 14170270037036064834581, 16, 20, 1813795999049411656482837,
  1209113457695469464780821, 20, 9446174224687141552149, 73798236120688164885, 52, 56, 16, 36, 48, 110702984367761391669, 4722398096440367782453, 4,
  1813759105543534562377737, 1813759105543672042946569, 4722400348102700571709, 604467267128052438408725, 48, 36, 14169982000448837523989, 16, 4,
  1813759105543534562377737, 1813759105543672042946569, 9446174365698433751573, 604466974394076659259925, 32, 28, 16, 14169693680736367808533, 48,
  1813720791240210923917365, 52, 4722398096302886885941, 604466974394076659259925, 110700731880752873505, 36, 16, 4, 1813722212055387143208969,
  1813722212055524615454729, 154766119648067246836683285, 36893664757548061205, 36, 40, 48, 14169981947672279389205, 14169981947672279389205,
  110702983955444531241, 16, 4, 1813759105543534562377737, 1813759105543672042946569, 52, 56, 4722400348102700571709, 604467267128052438408725, 48,
  9446174365698433751573, 604466974394076659259925, 52, 56, 16, 32, 48, 110700732567947640885, 4722398096440359393845, 4, 1813722212055387143208969,
  1813722212055524615454729, 4722400348102700571709, 604467267128052438408725, 48, 32, 1813720802569578736523813, 16, 4, 1813722212055387143208969,
  1813722212055524615454729, 9446174365698433751573, 604466974394076659259925, 44, 16, 32, 48, 1813720800317778922838053, 110700732430508687409, 4,
  1813722212055387143208969, 1813722212055524615454729, 40, 9446174330376622708245, 1209110314288345186833969, 40, 36893699941920151061, 32,
  1813720797995610364974641, 48, 604466686234069251660309, 16, 4, 1813722212055387143208969, 1813722212055524615454729, 4722395844503073200181, 4, 8,
  36893541612245746741, 36893542711757374517, 8, 36893541612245746709, 36893542711757374485]

theorem side4_l2_run5 : run .l2 2 65 11 side4Env [] side4_l2_5 (side4Paths5.map fun P => ⟨[P], []⟩) = true := Run.run_one (by decide +kernel)

def side4_l2_6 : List ℕ := [
  28, 32, 4722386837441282576417, 110698480080939122721, 16, 4, 1813685318567239724040201, 1813685318567377187962889, 73798236395566071829, 52, 56,
  36893753543112006685, 36893752993356192785, 48, 36893735263731194413, 36893735401170147861, 36, 40, 36893683174367826973, 36893682624612013073, 32,
  36893665032425968149, 36893664894987014701, 36, 40, 36893682624612013077, 36893683174367826973, 32, 36893665032425968149, 36893665032425968173, 52,
  48, 36893735401170147861, 36893735401170147885, 56, 36893752993356192785, 36893753543112006681, 40, 44, 36893699941920151061, 48,
  36893718358739916825, 36893717808984102933, 36, 36893682624612013073, 36893682624612013101, 40, 44, 36893699941920151061, 48, 36893717808984102929,
  36893718358739916829, 36, 36893682624612013073, 36893682624612013101, 52, 56, 36893752993356192813, 604467267128052438408725, 56,
  36893752993356192785, 36893753543112006685, 52, 56, 36893753543112006685, 36893752993356192785, 56, 604467267128052438408725, 36893752993356192813,
  4, 8, 36893541612245746733, 36893542436879467565, 8, 36893541612245746709, 36893542436879467541, 4, 8, 36893541612245746733, 36893542436879467565,
  8, 36893541612245746709, 36893542436879467541, 4, 8, 36893541612245746733, 36893542436879467565, 8, 36893541612245746709, 36893542436879467541, 4,
  8, 36893541612245746733, 36893542436879467565, 8, 36893541612245746709, 36893542436879467541, 20, 24, 40, 16, 12, 1813794569138937779980333,
  36893576796617836565, 232165705151525210871368217, 1813796287298480487009301, 36893611980989926421, 16, 12, 40, 1813794569138937779980333,
  154770840850404797187099181, 36893576796617836565, 73800487920501915669, 36, 20, 24, 110702983405688717337, 14169981876343610671129, 48, 52,
  110702984367761391669, 14169982000448837523989, 24, 4722382333704199474229, 73800488057940869145, 20, 24, 1813759393809232566812697,
  1209150062970832909893657, 24, 9446462472518040420377, 73800488057940869145, 32, 20, 1813720791187434365783065, 16, 24, 48, 28,
  1813720791240210923917365, 110700731880752873505, 4722382333704199474229, 73800488057940869145, 73800487920501915669, 20, 24,
  1813722500321085139320857, 1209149774740456749793305, 24, 9446462472380601466905, 73800488057940869145, 20, 32, 36893647715117829141, 36, 24,
  110702983405688717337, 14169981876343610671129, 36893664757548061205, 24, 36, 48, 40, 14169981947672279389205, 110702983955444531241,
  4722382333704199474229, 9446462472518040420377, 73800488057940869145, 32, 20, 14169693680736367807513, 24, 48, 52, 110700732567947640885,
  1813720802569578736523813, 4722382333704199474229, 110700731880752873501, 20, 24, 1813722500321085139320857, 1209149774740456749793305, 24,
  9446462472380601466905, 73800488057940869145, 20, 32, 14169693680736367807513, 24, 1813722500321085139320857, 1209149774740456749793305, 24, 48,
  44, 32, 1813720800317778922838053, 9446462472380601466905, 604466686234069251660309, 4722382333704199474229, 73800488057940869145, 36, 40, 24,
  14170270176673060099101, 110705235754184278057, 604466105252125134689825, 40, 110705235755258282025, 24, 1209187244759725233340457,
  9446750772161335530541, 36, 40, 4722391376225298813993, 110702983955444531241, 24, 40, 1209186956529211609317417, 1813759682109839998844969, 40,
  73802740407510433833, 9446750773262936375337, 36, 40, 4722391376225298813993, 110702983955444531241, 24, 40, 1209186956529211609317417,
  1813759682109839998844969, 40, 73802740407510433833, 9446750773262936375337, 36, 52, 48, 604466974429261031348761, 1813757696057726164015657, 48,
  14169982000036520663581, 110702984367761391669, 24, 44, 1209186956546803795361833, 1813759682127432184889385, 4, 8, 4722373396873697297437,
  73802739307998806025, 8, 1209184080822519858201609, 9446750632112056960037, 36, 52, 56, 14169982017628706708509, 1813757698344710349790269, 56,
  110702984505200345145, 4722400383424553557033, 4, 24, 8, 1813759681969102510489609, 604463790419508851772957, 8, 4722373396873697297437,
  73802739307998806025, 8, 604463797139586481787909, 24, 1209186956388611584884745, 9446750632112056960037, 4, 8, 36, 14169981806522474169373, 24,
  1813759681969102510489609, 4722373396873697297437, 24, 604463790419508851772957, 73802739307998806025, 8, 36, 110702982855932903433,
  604463797139586481787909, 36, 4722373361826789327913, 24, 1209186956388611584884745, 9446750632112056960037, 4, 8, 36893541612245746725,
  36893542162001560613, 8, 604463779160509783344165, 36893542162001560597, 4, 8, 36893541887123653665, 36893542162001560609, 8, 36893541887123653653,
  36893542162001560597, 16, 12, 24, 604464362411708461092357, 604464362411845900045889, 604464362411845900044809, 12, 28, 73804991382690463761,
  604464369167245341102089, 24, 1456932209079618077, 604464367003406457637405]

theorem side4_l2_run6 : run .l2 2 65 11 side4Env [] side4_l2_6 (side4Paths6.map fun P => ⟨[P], []⟩) = true := Run.run_one (by decide +kernel)

def side4_l2_7 : List ℕ := [
  24, 16, 73802739857754619925, 20, 1209184089917680043166741, 73802739857754619929, 28, 40, 14170270176673060098077, 1209187244759587761094689, 40,
  110705235755258282017, 1209187244759725233340449, 28, 32, 4722386837303843622945, 73804991932446277665, 40, 16, 12, 14170270071395803203613,
  604464362411845900044809, 20, 24, 1813794573748090523618329, 604464941106805831240725, 604464650571715868690949, 32, 1209224138247735188586533,
  1209224138212688280420385, 16, 12, 24, 73802739857754619925, 40, 14170270071395803203613, 28, 1209187244759587761094689, 1209187244759725233340449,
  604464362411845900044809, 20, 24, 1209184087665880229480981, 40, 4722380117226238773785, 28, 1209187244759587761094689, 1209187244759725233340449,
  604464650571715868690949, 16, 20, 36893595213437602345, 24, 36893612530745740325, 36893611980989926437, 12, 36893577346373650469,
  36893577346373650453, 8, 4, 36893541887123653665, 36893541887123653653, 4, 36893542162001560609, 36893542162001560597, 8, 4, 36893541887123653665,
  36893541887123653653, 4, 36893542162001560609, 36893542162001560597, 8, 48, 4, 604463779160509783349797, 12, 604463783664109410715677,
  604463783593740666538001, 12, 604464071876893376453141, 604464092090315141487121, 12, 604464071894485562492957, 48, 604464092143091699615765,
  604464092090315141482517, 32, 20, 28, 110700731879678935073, 110700731880752873505, 14169693681151830982681, 20, 28, 73800488332818776097,
  9446462506600803340325, 28, 1813722500338677325365273, 1209149774775641121882145, 36, 40, 20, 73800488608770687017, 14169981946712354848809,
  110702983955444531241, 20, 32, 9446462507702412509209, 73800488332818776089, 32, 1813759393844416938901529, 1209150063006017281982489, 8, 12, 48,
  604464071894485562497569, 604464071876893376453141, 48, 604464092160683885664785, 604464092090315141487121, 12, 604464071894485562492957, 48,
  604464092143091699615765, 604464092090315141482517, 8, 12, 44, 604464071894485562497045, 48, 604466686234069251660321, 604464071876893376453141,
  48, 604464092160683885664785, 604464092090315141487121, 12, 604464071894485562492957, 48, 604464092143091699615765, 604464092090315141482517, 16,
  48, 12, 8, 4, 604463779160509783349797, 73798235708371304457, 604464071894485562492957, 1209110298543338677078033, 12, 1209110298543338677078069,
  1209110298543338677078033, 12, 36, 14169981840743783729173, 1813759105543534562377745, 604464360054492970092565, 16, 20, 73798236120688164885, 32,
  110700731880752873497, 24, 73798236258127118361, 28, 73798236395566071837, 9446174276224643239973, 12, 32, 20, 14169693681561999772693,
  110700731880752873497, 1813722212055387143208977, 604464360054492970092565, 16, 48, 12, 8, 604464071894485562497569, 604464071894485562492957,
  1209110298543338677078033, 12, 1209110298543338677078069, 1209110298543338677078033, 36, 12, 14169981840743783729173, 604464360054492970092565, 12,
  1813759105543534562377745, 604464360054492970092565, 16, 20, 73798236120688164885, 32, 110700731880752873497, 9446174276224643238949, 12, 32, 20,
  14169693681561999772693, 110700731880752873497, 1813722212055387143208977, 604464360054492970092565, 16, 20, 73798236120688164885, 48, 44,
  1209110316557737186564117, 604466686234069251660321, 12, 1209110298543338677078069, 1209110298543338677078033, 12, 32, 20, 14169693681561999772693,
  110700731880752873497, 1813722212055387143208977, 604464360054492970092565, 4, 8, 36893541612245746733, 36893542436879467565, 8,
  36893541612245746709, 36893542436879467541, 4, 8, 36893541612245746733, 36893542436879467565, 8, 36893541612245746709, 36893542436879467541, 4, 8,
  36893541612245746733, 36893542436879467565, 8, 36893541612245746709, 36893542436879467541, 4, 8, 36893541612245746733, 36893542436879467565, 8,
  36893541612245746709, 36893542436879467541, 16, 12, 40, 14170270071397951406097, 1209113457677877278736401, 36893576796617836565, 20, 40,
  110705235066989379605, 9446174224687141552149, 73798236120688164885, 4, 8, 36893541612245746733, 36893542436879467565, 8, 36893541612245746709,
  36893542436879467541, 4, 8, 36893541612245746733, 36893542436879467565, 8, 36893541612245746709, 36893542436879467541, 4, 8, 36893541612245746733,
  36893542436879467565, 8, 36893541612245746709, 36893542436879467541, 4, 8, 36893541612245746733, 36893542436879467565, 8, 36893541612245746709,
  36893542436879467541, 8, 4, 40, 4722373326642425627693, 16, 20, 1813796287279787808260117, 154770840850404797187099181, 20,
  19810719353810427097775082005, 73800487920501915669, 36893541612245746709, 12, 36893559204431791637, 40, 14170270054628250879509, 16, 20,
  1813796287279787808260117, 154770840850404797187099181, 20, 19810719353810427097775082005, 73800487920501915669, 36, 40, 24,
  14170270176673060099101, 110705235754184278057, 604466105252125134689825, 40, 110705235755258282025, 24, 1209187244759725233340457,
  9446750772161335530541]

theorem side4_l2_run7 : run .l2 2 65 11 side4Env [] side4_l2_7 (side4Paths7.map fun P => ⟨[P], []⟩) = true := Run.run_one (by decide +kernel)

def side4_l2_8 : List ℕ := [
  36, 40, 4722391376225298813993, 110702983955444531241, 24, 40, 1209186956529211609317417, 1813759682109839998844969, 40, 73802740407510433833,
  9446750773262936375337, 36, 40, 4722391376225298813993, 110702983955444531241, 24, 40, 1209186956529211609317417, 1813759682109839998844969, 40,
  73802740407510433833, 9446750773262936375337, 36, 8, 4, 14169981806522474169373, 110702982855932903433, 12, 604464071894485562492961,
  4722375613626603013673, 24, 16, 1813759682039608718589973, 1813759682039471254667285, 8, 4, 4722373396873697297437, 1209184080822519858201609, 12,
  604464071894485562492961, 1209184083162280602109457, 8, 24, 36, 4, 14169981806522474169373, 110702982855932903433, 16, 1813759682039608718589973,
  1813759682039471254667285, 4, 4722373396873697297437, 1209184080822519858201609, 12, 604464071894485562492961, 24, 36, 4722375613626603013673, 16,
  1813759682039608718589973, 1813759682039471254667285, 1209184083162280602109457, 8, 24, 36, 4, 14169981806522474169373, 110702982855932903433, 16,
  1813759682039608718589973, 1813759682039471254667285, 4, 4722373396873697297437, 1209184080822519858201609, 12, 604464071894485562492961, 24, 36,
  4722375613626603013673, 16, 1813759682039608718589973, 1813759682039471254667285, 1209184083162280602109457, 8, 12, 36893559204431791653,
  36893559754187605541, 4, 36893542162001560613, 36893542162001560597, 4, 8, 36893541887123653665, 36893542162001560609, 8, 36893541887123653653,
  36893542162001560597, 8, 12, 36893559204431791653, 36893559754187605541, 4, 36893542162001560613, 36893542162001560597, 4, 8, 36893541887123653665,
  36893542162001560609, 8, 36893541887123653653, 36893542162001560597, 8, 4, 36893541887123653665, 36893541887123653653, 4, 36893542162001560609,
  36893542162001560597, 20, 24, 40, 110705235204428398617, 9446462472655479373849, 73800488057940869145, 24, 604464941071621459151905, 40,
  14170270106304315919385, 1813796287297242513735705, 20, 24, 36, 110702983404614713369, 9446462472518040420377, 73800488057940869145, 24,
  604464941071621459151905, 36, 14169981876343610671129, 1209150062970832909893657, 20, 24, 36, 110702983404614713369, 9446462472518040420377,
  73800488057940869145, 24, 604464941071621459151905, 36, 14169981876343610671129, 1209150062970832909893657, 20, 24, 36, 110702983404614713369,
  9446462472518040420377, 73800488057940869145, 24, 604464941071621459151905, 36, 14169981876343610671129, 1209150062970832909893657, 20, 24, 36,
  110702983404614713369, 9446462472518040420377, 73800488057940869145, 24, 604464941071621459151905, 36, 14169981876343610671129,
  1209150062970832909893657, 20, 24, 36, 110702983404614713369, 9446462472518040420377, 73800488057940869145, 24, 604464941071621459151905, 36,
  14169981876343610671129, 1209150062970832909893657, 24, 20, 40, 110705235204428398617, 9446462472655479373849, 604464941071621459151905, 20,
  73800488057940869145, 40, 14170270106304315919385, 1813796287297242513735705, 40, 44, 110707487692510986285, 20, 9446462559377361475121,
  1209150639519546160316461, 20, 44, 110707487691436851245, 73800488745135636525, 44, 14170558424641406244377, 1209150639519408671424557, 40, 44,
  110705235892697235501, 20, 48, 36893718358739916845, 1209147209922739311745073, 232165706869648468713609241, 36, 36893683174367826989, 20, 44,
  154770842595549652793169433, 48, 36893718358739916845, 1209147209922739311745073, 604466105146441113539609, 44, 40, 110707487692510986285, 20,
  110707487691436851245, 14170558424641406244377, 48, 36893718358739916845, 20, 9446462576969547520049, 1209150639537138346360881, 20, 52, 48,
  4722398201856011541017, 36893735950925961773, 56, 36893753543112006701, 9446462612704698833965, 40, 44, 110705235892697235501,
  232165706869648468713609241, 44, 29717238372541743175915542041, 1209150351289032519647277, 40, 28, 20, 32, 73800488332818776097,
  110705235479306305569, 32, 1813794578163729220767769, 14170270141488688009241, 32, 20, 73800488333892845601, 14170270141904134537249,
  110705235480380375073, 20, 28, 32, 73800488332818776097, 9446462507839851462689, 32, 9446462506600803340333, 1209147201003500987224109, 28, 32,
  1209150351236255961514017, 1813796287332426885824545, 32, 1209150351236393442082849, 1813796287332564366393377, 40, 28, 20, 24,
  73800488195379822621, 73800488196453892125, 24, 1813794575911929407082009, 14170270124311948492829, 24, 20, 110705235341867352093,
  14170270123896501964313, 110705235342941421597, 20, 24, 28, 73800488195379822621, 9446462490247665418269, 28, 9446462489008617295405,
  1209147198751701173538349, 24, 28, 1209150351218663775469597, 1813796287314834699780125, 28, 1209150351218801256038429, 1813796287314972180348957,
  44, 40, 20, 9446462560615335466533, 36, 1813757691536534350599721, 32, 1813759393844416938901529, 1209150063006017281982489,
  604466393500093472511525, 48, 604466683911763254843397, 20, 4722395914871825766449, 36, 110702984092883484713, 32, 1813759393844416938901529,
  1209150063006017281982489, 44, 40, 20, 9446462560615335466533, 36, 1813757691536534350599721, 32, 1813759393844416938901529,
  1209150063006017281982489, 604466393500093472511525, 48, 20, 4722395914871825766449, 36, 110702984092883484713, 32, 1813759393844416938901529,
  1209150063006017281982489, 604466683911763254843397, 28, 32, 14169693681561999773741, 20, 40, 36, 1209147205507100614595609,
  604466105199211137603077, 44, 604466393500093472511525, 4722393663072012080689, 1813722500338677325365273, 32, 110700731880752873505, 20, 40, 36,
  1209147205507100614595609, 604466105199211137603077, 44, 604466393500093472511525, 4722393663072012080689, 1209149774775641121882145]

theorem side4_l2_run8 : run .l2 2 65 11 side4Env [] side4_l2_8 (side4Paths8.map fun P => ⟨[P], []⟩) = true := Run.run_one (by decide +kernel)

def side4_l2_9 : List ℕ := [
  28, 32, 14169693681561999773741, 20, 40, 36, 1209147205507100614595609, 604466105199211137603077, 44, 604466393500093472511525,
  4722393663072012080689, 1813722500338677325365273, 32, 110700731880752873505, 20, 9446462506600803340325, 1209149774775641121882145, 36, 40, 44,
  1813757689284734536913961, 110702984092883484713, 110702983955444531241, 20, 32, 9446462507702412509209, 73800488332818776089, 32,
  1813759393844416938901529, 1209150063006017281982489, 36, 40, 44, 1813757689284734536913961, 110702984092883484713, 110702983955444531241, 32, 20,
  9446462507702412509209, 1813759393844416938901529, 20, 73800488332818776089, 1209150063006017281982489, 44, 48, 8, 604466683982269437969953,
  604466683964677251925525, 28, 604466674975070183231521, 604466674904701439053845, 48, 604466683911763254843397, 8, 604466663698478928762901,
  604466663645702370629653, 44, 48, 28, 604466674975070183231525, 604466674904701439053845, 8, 604466683982269437969953, 604466683964677251925525,
  48, 8, 604466663698478928762901, 604466663645702370629653, 604466683911763254843397, 40, 36, 24, 14170270176673060099101, 20, 73802739857754619929,
  73802739858828623897, 110705235755258282025, 36, 604466105252125134689825, 24, 1209187244759725233340457, 20, 73802739857754619929,
  9446750701792591350829, 20, 24, 36, 40, 4722391376225298813993, 110702983955444531241, 1813759682039471254667289, 73802739857754619929, 24, 36, 40,
  4722391376225298813993, 110702983955444531241, 1813759682039608718589977, 9446750702480801139749, 20, 24, 36, 40, 4722391376225298813993,
  110702983955444531241, 1813759682039471254667289, 73802739857754619929, 24, 36, 40, 4722391376225298813993, 110702983955444531241,
  1813759682039608718589977, 9446750702480801139749, 20, 24, 36, 14169981875928155819037, 1813759682039471254667289, 73802739857754619929, 24, 36,
  110702983405688717337, 1813759682039608718589977, 9446750702480801139749, 20, 24, 36, 14169981875928155819037, 1813759682039471254667289,
  73802739857754619929, 24, 36, 110702983405688717337, 1813759682039608718589977, 9446750702480801139749, 20, 24, 36, 14169981875928155819037,
  1813759682039471254667289, 73802739857754619929, 24, 36, 110702983405688717337, 1813759682039608718589977, 9446750702480801139749, 40, 36, 24,
  14170270176673060099101, 20, 73802739857754619929, 73802739858828623897, 110705235755258282025, 36, 604466105252125134689825, 24,
  1209187244759725233340457, 20, 73802739857754619929, 9446750701792591350829, 20, 24, 36, 40, 4722391376225298813993, 110702983955444531241,
  1813759682039471254667289, 73802739857754619929, 24, 36, 40, 4722391376225298813993, 110702983955444531241, 1813759682039608718589977,
  9446750702480801139749, 20, 24, 36, 40, 4722391376225298813993, 110702983955444531241, 1813759682039471254667289, 73802739857754619929, 24, 36, 40,
  4722391376225298813993, 110702983955444531241, 1813759682039608718589977, 9446750702480801139749, 20, 24, 36, 14169981875928155819037,
  1813759682039471254667289, 73802739857754619929, 24, 36, 110702983405688717337, 1813759682039608718589977, 9446750702480801139749, 20, 24, 36,
  14169981875928155819037, 1813759682039471254667289, 73802739857754619929, 24, 36, 110702983405688717337, 1813759682039608718589977,
  9446750702480801139749, 20, 24, 36, 14169981875928155819037, 1813759682039471254667289, 73802739857754619929, 24, 36, 110702983405688717337,
  1813759682039608718589977, 9446750702480801139749, 28, 24, 36893630122931785233, 36893630122931785249, 8, 12, 36893559066992838181,
  36893559754187605537, 36, 12, 1209294763556354140407309, 36893559754187605521, 48, 52, 4722398149216951081525, 4722398026071648770613, 32,
  1813871227247818550607909, 1209298501668702978576913, 16, 44, 20, 4722380187594991340053, 1813831464878885021157909, 28, 12, 73804991382690463761,
  1209220978919820029331473, 56, 1209224426548480084541489, 1813833757386879741460529, 12, 28, 1209220978867043471198241, 44,
  14170558301634515961901, 56, 1209224426548480084541489, 1813833757386879741460529, 604464360089677342181401, 40, 36, 12, 14170270176811480519725,
  16, 28, 1209220978919820029331473, 14170270176673060099105, 604464360089677342181401, 110705235755258282025, 28, 9447039003776527106081, 36,
  1209224138247735188586537, 1209224138247872652509225, 44, 40, 110707487692510986285, 12, 48, 1813831480782221205313553, 1813831480623891530913809,
  16, 1813831462750230509783057, 604464360089677342181401, 48, 604466686269253623749165, 28, 40, 4722391446456587259937, 73804992207324184609,
  1813833757351695369371697, 16, 28, 12, 73804991382690463761, 1209220978919820029331473, 12, 604464369167245341102089, 604464369167245341100057, 12,
  28, 1209220978867043471198241, 604464360160046086361125, 604464360089677342181401]

theorem side4_l2_run9 : run .l2 2 65 11 side4Env [] side4_l2_9 (side4Paths9.map fun P => ⟨[P], []⟩) = true := Run.run_one (by decide +kernel)

def side4_l2_10 : List ℕ := [
  8, 24, 12, 604464078685069375639069, 40, 604464069677870120900133, 604464069572179565680133, 73802739857754619917, 40, 4, 0, 12,
  604464087762637374555669, 604464069677870120895005, 604463493217117817340937, 604463799532261222778393, 4, 0, 12, 1177709032182580761,
  604464069677870120895005, 604463493217117817340937, 889478656030803481, 40, 36, 8, 14170270176674041566253, 14170270176674041566253,
  110705235755258282025, 24, 36, 1209187244759587761094697, 1209187244759725233340457, 36, 73802740407510433833, 9446750772161335530541, 44, 8, 48,
  1813831480782221205313549, 1813831480606299344869389, 12, 1813831460498430696097293, 24, 9903539316471838143255088685, 1209184083091911857931789,
  24, 48, 604466686269253623749165, 1813833469121319209271345, 8, 73802739857754619917, 12, 1209184083162280602109453, 1209184083091911857931789, 8,
  24, 12, 604464078685069375639069, 40, 1813794566851953594205741, 604464069607501376722461, 73802739857754619917, 40, 12, 1813794566992691082561037,
  110705234793185607693, 12, 604464087621899886200349, 24, 9903539316471838143255088685, 1209184083091911857931789, 48, 52, 60,
  1813868376574945004624437, 1813868376574945004624437, 4722398026071648770613, 44, 604466686304437995838005, 24, 1209187821257037279401993,
  9446750808858551130121, 36, 40, 4722391376225298813993, 110702983955444531241, 24, 40, 1209186956529211609317417, 1813759682109839998844969, 40,
  73802740407510433833, 9446750773262936375337, 28, 24, 36893630397809692205, 44, 232170428096720633707564577, 19811933002575237150867983901, 32, 8,
  12, 73804991245251510285, 9447038879530638902829, 9447038967491569127469, 73804991932446277665, 28, 40, 36, 8, 14170270176674041566253,
  14170270176674041566253, 110705235755258282025, 36, 1209224138247735188586537, 1209224138247872652509225, 40, 36, 8, 14170270176674041566253,
  14170270176674041566253, 73804992069885231137, 1209220992483395469578285, 28, 44, 24, 29717814796391551253753567265, 32, 36, 40,
  110707487692510986285, 110707487555072032809, 110707487417633079333, 14170558372555164221473, 48, 604466686269253623749165,
  1813833757351695369371697, 40, 4722391446456587259937, 73804992207324184609, 40, 28, 32, 110705235480380375073, 14170270142179012444193, 32,
  110705235479306436641, 73804991932446277665, 28, 32, 1209224138247735188586533, 1209224138212688280420385, 9447039002537495629869, 8, 28, 12,
  73804991245251510285, 9447038879530638902829, 12, 604464080936869189324809, 604464069677870120898605, 28, 12, 4722375683857891460621,
  1209220976580059285423629, 12, 604464080936869189322269, 9903539316760068519406800933, 40, 36, 8, 14170270176674041566253, 14170270176674041566253,
  110705235755258282025, 28, 9447039003776527106081, 36, 1209224138247735188586537, 1209224138247872652509225, 44, 40, 110707487692510986285, 28,
  73804992207324184609, 14170558407739536310305, 28, 40, 4722391446456587259937, 73804992207324184609, 48, 604466686269253623749165,
  1813833757351695369371697, 8, 28, 12, 73804991245251510285, 1209220976597651471468065, 12, 604464080936869189324809, 604464069677870120898605, 28,
  12, 1209220976668020215645709, 1209220976580059285423629, 12, 604464080936869189322269, 9903539316760068519406800933, 24, 8, 73802739857754619917,
  20, 73802739857754619929, 4722382439257324129293, 44, 8, 12, 604464078685069375639077, 14170558283904890963501, 12, 1813831460498430696097293,
  9903539316471838143255088685, 28, 19811328539654170836138462769, 36893630397809692205, 40, 36, 8, 14170270176674041566253, 14170270176674041566253,
  110705235755258282025, 28, 36893683174367825949, 24, 20, 73802739857754619929, 8, 73802739857754619917, 4722382439257324129293,
  36893630397809692205, 44, 24, 8, 73802739857754619917, 12, 1209184083162280602109453, 1209184083091911857931789, 28,
  486896677600431609306442325823005, 29717814796389299453939882013, 24, 8, 73802739857754619917, 12, 1209184083162280602109453,
  1209184083091911857931789, 48, 604466686269253623749165, 1813833469121319209271345, 24, 20, 73802739857754619929, 40, 73802739858828623897,
  9446750701792591350829, 40, 28, 14170270176673060098077, 110705235755258282017, 28, 1209187244759587761094689, 1209187244759725233340449, 8, 12,
  28, 16, 73804991382690463757, 20, 36893595213437602349, 1209220981118843284884001, 604464069677870120898605, 36893560029065512493, 12,
  604464069677870120896017, 28, 1209220976668020215645709, 604464080936869189322269, 40, 36, 8, 14170270176674041566253, 14170270176674041566253,
  110705235755258282025, 28, 9447039003776527106081, 36, 1209224138247735188586537, 1209224138247872652509225, 44, 40, 110707487692510986285, 28,
  73804992207324184609, 14170558407739536310305, 48, 604466686269253623749165, 28, 40, 4722391446456587259937, 73804992207324184609,
  1813833757351695369371697]

theorem side4_l2_run10 : run .l2 2 65 11 side4Env [] side4_l2_10 (side4Paths10.map fun P => ⟨[P], []⟩) = true := Run.run_one (by decide +kernel)

def side4_l2_11 : List ℕ := [
  8, 28, 16, 73804991382690463757, 20, 73804991520129417237, 1209220981118843284884001, 12, 604464069677870120898605, 604464080936869189324809, 12,
  604464069607501376718361, 28, 1209220976668020215645709, 604464080936869189322269, 8, 12, 36893559204431791653, 36893559754187605537, 12,
  604464069642685748807197, 36893559754187605525, 12, 16, 36893576796617836581, 36893577346373650469, 8, 36893559754187605537, 36893559754187605525,
  48, 52, 4722398131624765037109, 4722398026071648770613, 28, 32, 12, 1209220987856650539896865, 1209220987856650539896865, 73804991932446277665, 24,
  1813870650751881858318365, 1209224714657223768280585, 44, 8, 48, 28, 12, 1813831480782221205313553, 32, 1209220987856650539896865,
  73804991932446277665, 14170558442923908399153, 1813831480606299344869389, 48, 12, 604464069677870120896017, 28, 32, 1209220987856650539896865,
  73804991932446277665, 14170558442923908399153, 1813831480606299344869389, 48, 36893718221300963369, 28, 32, 9447038968729593970721,
  73804991932446277665, 1813833757351695369371697, 48, 52, 4722398131624765037109, 4722398026071648770613, 44, 36893718221300963369, 40, 36,
  36893683449245733941, 32, 36893665444742828573, 28, 73804991932446277665, 24, 1813870650751881858318365, 1209224714657223768280585,
  36893700629114918429, 48, 52, 4722398131624765037109, 4722398026071648770613, 28, 8, 12, 1209220976580059285423649, 60, 56,
  1209221003689617979874829, 52, 604467240141639046268433, 1209221001349857235967009, 604464098986452070899765, 4, 9447038863313916657673,
  4722373467242449863693, 24, 1813870650751881858318365, 1209224714657223768280585, 48, 52, 4722398131624765037109, 4722398026071648770613, 28, 40,
  73804992482202091565, 36, 73804992069885231137, 36893683449245733941, 24, 1813870650751881858318365, 1209224714657223768280585, 48, 52,
  4722398166809137125941, 4722398026071648770613, 44, 36893718083862009893, 32, 1209261608231956763967537, 28, 73807243732260028449,
  9447327198692354560017, 32, 44, 14170558424641406243365, 48, 36893718083862009893, 1813834045582071529472049, 28, 73807243732260028449,
  9447327198692354560017, 48, 52, 4722398166809137125941, 4722398026071648770613, 44, 36893718083862009893, 32, 1209261608231956763967537, 28,
  73807243732260028449, 9447327198692354560017, 32, 44, 14170558424641406243365, 48, 36893718083862009893, 1813834045582071529472049, 28,
  73807243732260028449, 9447327198692354560017, 12, 16, 36893577346373650469, 20, 36893594938559695397, 24, 32, 48, 52, 4722398166809137125941,
  4722398026071648770613, 44, 36893718083862009893, 1209261608231956763967537, 73807243732260028445, 36893613080501554229, 16, 32, 48, 52,
  4722398166809137125941, 4722398026071648770613, 44, 36893718083862009893, 1209261608231956763967537, 1209257872425559642867729,
  604464360124861714270241, 12, 16, 36893577346373650469, 20, 36893594938559695397, 24, 32, 44, 14170558424641406243365, 48, 36893718083862009893,
  1813834045582071529472049, 73807243732260028445, 36893612805623647273, 16, 32, 44, 14170558424641406243365, 48, 36893718083862009893,
  1813834045582071529472049, 1209257872425559642867729, 604464360124861714270241, 12, 16, 36893577346373650469, 32, 48, 52, 4722398166809137125941,
  4722398026071648770613, 44, 36893718083862009893, 1209261608231956763967537, 1209257872355190898690085, 16, 32, 48, 52, 4722398166809137125941,
  4722398026071648770613, 44, 36893718083862009893, 1209261608231956763967537, 1209257872425559642867729, 604464360124861714270241, 44, 48,
  4722395915009315051569, 8, 1813831480606299344869389, 12, 604464069677870120896017, 16, 32, 14170558424641406243365, 1209257872425559642867729,
  604464360124861714270241, 48, 36893718083862009893, 32, 1813834045582071529472049, 12, 16, 36893577346373650469, 1209257872355190898690085, 16,
  1209257872425559642867729, 604464360124861714270241, 12, 8, 24, 73802739857754619917, 48, 52, 4722398131624765037109, 4722398026071648770613, 28,
  1209187821167700995407901, 604465220189115425754677, 604464069677870120896021, 16, 604464360089677342181401, 24, 1209184085414080415795217, 48, 52,
  4722398131624765037109, 4722398026071648770613, 28, 1209187821167700995407901, 604465220189115425754677, 16, 20, 36893595488315509301, 24,
  36893612530745740325, 36893611980989926437, 12, 36893577346373650465, 36893577346373650453, 36, 8, 12, 1209294763556354140407337, 16,
  604464357802693156406801, 9447615358837201045513, 4, 4722373467242466640937, 4722373467242466640909, 48, 52, 4722398149216951081525,
  4722398026071648770613, 32, 1813871227247818550607909, 1209298501668702978576905, 48, 52, 4722398131624765037109, 4722398026071648770613, 24, 16,
  73802739857754619925, 20, 1209184087665880229480981, 604464650571715868690949, 28, 1209187821167700995407901, 604465220189115425754677]

theorem side4_l2_run11 : run .l2 2 65 11 side4Env [] side4_l2_11 (side4Paths11.map fun P => ⟨[P], []⟩) = true := Run.run_one (by decide +kernel)

def side4_linf_0 : List ℕ := [
  36, 32, 36893664482670154281, 36893664482670154253, 32, 36893665444742828585, 36893665444742828557, 12, 0, 73795984045996507141, 8,
  9445885958163471009333, 1209073402645061761500677, 20, 604464648337645679937541, 36, 14169981858335969773585, 1813758817330750588321809, 12, 0,
  73795984045996507141, 9445885958163471008293, 16, 36893576521739929613, 32, 14169693610367623628817, 1813721923825010983108625, 12, 0,
  73795984045996507141, 9445885958163471008285, 16, 36893576521739929613, 28, 14169405379991463528465, 24, 1813685030389916039646777,
  1209075699551377937399837, 12, 0, 73795984045996507141, 9445885958163471008285, 16, 36893576521739929613, 28, 14169405379991463528465, 24,
  1813685030389916039646777, 1209075699551377937399837, 12, 0, 73795984045996507141, 9445885958163471008285, 16, 36893576521739929613, 28,
  14169405379991463528465, 24, 1813685030389916039646777, 1209075699551377937399837, 12, 0, 73795984045996507141, 9445885958163471008285, 16,
  36893576521739929613, 28, 4722378006163888277521, 24, 1813685030389916039646773, 1209075699551377937399837, 12, 0, 73795984045996507141,
  9445885958163471008285, 16, 36893576521739929613, 28, 4722378006163888277521, 24, 1813685030389916039646773, 1209075699551377937399837, 12, 0,
  73795984045996507141, 9445885958163471008285, 16, 36893576521739929613, 28, 4722378006163888277521, 24, 1813685030389916039646769,
  1209075699551377937399837, 12, 0, 73795984045996507141, 9445885958163471008285, 16, 36893576521739929613, 28, 4722378006163888277521, 24,
  1813685030389916039646769, 1209075699551377937399837, 12, 0, 73795984045996507141, 9445885958163471008285, 16, 36893576521739929613, 28,
  14169405379991463528465, 24, 1813685030389916039646777, 1209075699551377937399837, 12, 0, 73795984045996507141, 9445885958163471008293, 16,
  36893576521739929613, 32, 14169693610367623628817, 1813721923825010983108625, 28, 32, 36893646890484109325, 36893648264873644045, 32,
  36893646890484109365, 36893648264873644085, 24, 28, 36893630672687599117, 36893629298298064397, 28, 36893630672687599157, 36893629298298064437, 20,
  24, 36893613080501554189, 36893611706112019469, 24, 36893613080501554229, 36893611706112019509, 20, 24, 36893613080501554189, 36893611706112019469,
  24, 36893613080501554229, 36893611706112019509, 12, 0, 73795984045996507141, 9445885958163471008285, 36, 28, 40, 1813757687015342537183277, 52,
  604466976610692100724261, 4722398149216925914669, 232160983935730038794620945, 32, 1813758817401395249943097, 1813758817401395249943073, 0, 12,
  73795984045996507141, 32, 52, 232156259837595117502405649, 1813720779981211855487545, 40, 1813721923930564099375141, 1209075987834393175064613, 12,
  9445885958163471008293, 32, 110700731193558106117, 40, 1813721923930564099375141, 1209075987834393175064613, 20, 24, 36893613080501554189,
  36893611706112019469, 24, 36893613080501554229, 36893611706112019509, 20, 24, 36893613080501554189, 36893611706112019469, 24, 36893613080501554229,
  36893611706112019509, 12, 0, 73795984045996507141, 9445885958163471008293, 32, 0, 16, 604464353263909156946445, 20, 4722380240371524307477,
  9903548871011569997109791245, 110700731193558106117, 40, 1813721923930564099375141, 1209075987834393175064613, 24, 28, 36893630672687599117,
  36893629298298064397, 28, 36893630672687599157, 36893629298298064437, 28, 32, 36893646890484109325, 36893648264873644045, 32, 36893646890484109365,
  36893648264873644085, 12, 0, 73795984045996507141, 9445885958163471008285, 36, 28, 40, 1813757687015342537183277, 52, 604466976610692100724261,
  4722398149216925914669, 232160983935730038794620945, 32, 1813758817401395249943097, 1813758817401395249943073, 56, 52, 28, 4722400313055792602173,
  24, 12, 0, 73795984045996507141, 9445885958163471008281, 1813685030389916039646781, 36893629298298064397, 36893752443600378893, 52,
  604467267163236810497549, 28, 14169405557563598052365, 24, 12, 0, 73795984045996507141, 9445885958163471008281, 1813685030389916039646781,
  36893629298298064397, 12, 0, 73795984045996507141, 9445885958163471008281, 24, 36893612255867832349, 28, 56, 14169405434418295737869,
  14169405434418295737869, 36893629298298064397, 12, 0, 73795984045996507141, 9445885958163471008281, 24, 36893612255867832349, 28, 56,
  14169405434418295737869, 14169405434418295737869, 36893629298298064397, 12, 0, 73795984045996507141, 9445885958163471008281, 24,
  36893612255867832349, 28, 56, 14169405434418295737869, 14169405434418295737869, 36893629298298064397, 12, 0, 73795984045996507141,
  9445885958163471008281, 24, 36893612255867832349, 28, 56, 14169405434418295737869, 14169405434418295737869, 36893629298298064397, 12, 0,
  73795984045996507141, 9445885958163471008281, 24, 14169117184940277432337, 1813648136884037980782609]

theorem side4_linf_run0 : run .linf 2 90 17 side4Env [] side4_linf_0 (side4Paths0.map fun P => ⟨[P], []⟩) = true := Run.run_one (by decide +kernel)

def side4_linf_1 : List ℕ := [
  12, 0, 73795984045996507141, 9445885958163471008281, 24, 110696228006247464977, 28, 604465249480105114209809, 36893629298298064397, 12, 0,
  73795984045996507141, 9445885958163471008281, 24, 110696228006247464977, 28, 604465249480105114209809, 36893629298298064397, 12, 0,
  73795984045996507141, 9445885958163471008281, 24, 110696228006247464977, 28, 604465249480105114209809, 36893629298298064397, 12, 0,
  73795984045996507141, 9445885958163471008281, 24, 110696228006247464977, 28, 604465249480105114209809, 36893629298298064397, 12, 0,
  73795984045996507141, 9445885958163471008281, 24, 36893612255867832349, 28, 56, 14169405434418295737869, 14169405434418295737869,
  36893629298298064397, 12, 0, 73795984045996507141, 9445885958163471008281, 24, 36893612255867832349, 28, 56, 14169405434418295737869,
  14169405434418295737869, 36893629298298064397, 12, 0, 73795984045996507141, 9445885958163471008281, 24, 36893612255867832349, 28, 56,
  14169405434418295737869, 14169405434418295737869, 36893629298298064397, 12, 0, 73795984045996507141, 9445885958163471008281, 24,
  36893612255867832349, 28, 56, 14169405434418295737869, 14169405434418295737869, 36893629298298064397, 12, 0, 73795984045996507141,
  9445885958163471008281, 24, 36893612255867832349, 28, 32, 4722386960586584887313, 4722386872625654665233, 36893629298298064397, 12, 0,
  73795984045996507141, 9445885958163471008281, 24, 110696228006247464977, 28, 604465249480105114209809, 36893629298298064397, 12, 0,
  73795984045996507141, 9445885958163471008281, 24, 110696228006247464977, 28, 604465249480105114209809, 36893629298298064397, 12, 0,
  73795984045996507141, 9445885958163471008281, 24, 110696228006247464977, 28, 604465249480105114209809, 36893629298298064397, 12, 0,
  73795984045996507141, 9445885958163471008281, 24, 110696228006247464977, 28, 604465249480105114209809, 36893629298298064397, 12, 0,
  73795984045996507141, 9445885958163471008281, 24, 110696228006247464977, 28, 604465249480105114209809, 36893629298298064397, 12, 0,
  73795984045996507141, 9445885958163471008281, 24, 110696228006247464977, 28, 604465247228305300524561, 1813648136901492702904349, 12, 0,
  73795984045996507141, 9445885958163471008281, 24, 110696228006247464977, 28, 604465247228305300524561, 1813648136901492702904349, 12, 0,
  73795984045996507141, 9445885958163471008281, 24, 110696228006247464977, 28, 604465247228305300524561, 1813648136901492702904349, 12, 0,
  73795984045996507141, 9445885958163471008281, 24, 110696228006247464977, 28, 604465242724705673154065, 1813648136901492702904349, 12, 0,
  73795984045996507141, 9445885958163471008281, 24, 110696228006247464977, 28, 604465247228305300524561, 1813648136901492702904349, 32, 44,
  110707487692510986277, 1209261319983988417822757, 44, 110707487691437047845, 56, 73807244556893749297, 8, 4, 604463781412309597036061, 0,
  604463520203531209481765, 604463520238715581563433, 19812481238367955918957119025, 24, 36, 110702983818005577757, 1209186956511756887195677, 36,
  110702983816931639325, 73802740270071480349, 16, 12, 32, 52, 48, 0, 4, 604463488607965073710097, 604463515629562837932565,
  604466976645876472939029, 604466976645876472945169, 0, 4, 604463488607965073710101, 77371330288796828285606921, 28, 1813720791099473435562041,
  36893647165362016273, 1209112881217124958535697, 36893576796617836561, 52, 48, 0, 4, 604463488607965073710097, 604463515629562837932565,
  604466976645876472939029, 604466976645876472945169, 12, 1209110298560930863122489, 32, 0, 4, 604463488607965073710101, 77371330288796828285606921,
  28, 1813720791099473435562041, 36893647165362016273, 9446174206820077600785, 28, 16, 12, 8, 14169405362400284116537, 14169405362677310029837,
  36893576796617836561, 110698479942426230805, 16, 1209112593039525356568597, 73798236395566071829, 28, 16, 12, 8, 14169405362400284116537,
  14169405362677310029837, 36893576796617836561, 110698479942426230805, 16, 1209112593039525356568597, 73798236395566071829, 16, 28, 12, 44,
  232151537750335423680616469, 1813683888674495497504817, 36893576796617836561, 1209112593039525356568597, 28, 110698479942426230805,
  73798236395566071829, 16, 12, 56, 604464362341477155872277, 604464362341477155872273, 36893576796617836561, 28, 110698479942426230805,
  73798236395566071829, 16, 12, 56, 604464362341477155872277, 604464362341477155872273, 36893576796617836561, 28, 110698479942426230805,
  73798236395566071829, 16, 28, 12, 52, 56, 4722400348240164691005, 604467267128052438408721, 56, 36893752718478285841, 14169405557563598052373,
  36893576796617836561, 1209112593039525356568597, 28, 110698479942426230805, 73798236395566071829]

theorem side4_linf_run1 : run .linf 2 90 17 side4Env [] side4_linf_1 (side4Paths1.map fun P => ⟨[P], []⟩) = true := Run.run_one (by decide +kernel)

def side4_linf_2 : List ℕ := [
  16, 12, 28, 8, 36893559204431791665, 56, 52, 4722400348240164691005, 36893752718478285841, 52, 604467267128052438408721, 14169405557563598052373,
  1209112593039525356568597, 36893576796617836561, 28, 110698479942426230805, 73798236395566071829, 16, 28, 12, 44, 232151537750335423680616469,
  1813683888674495497504817, 36893576796617836561, 1209112593039525356568597, 28, 110698479942426230805, 73798236395566071829, 40, 4, 56, 0,
  604463490894949259484701, 36, 24, 14170270177225945579561, 73802740408584437801, 1813794582579367917917189, 0, 604463490894949259484701, 36, 24,
  14170270177225945579561, 73802740408584437801, 1813794582579367917917189, 8, 604463779142917597299745, 1813794564740891268875273, 36,
  604466105234532948645401, 24, 1813796575597987418013737, 9446750773400375328809, 24, 36, 110702983818005577757, 1209186956511756887195677, 36,
  110702983816931639325, 73802740270071480349, 24, 36, 110702983818005577757, 1209186956511756887195677, 36, 110702983816931639325,
  73802740270071480349, 24, 36, 110702983818005577757, 1209186956511756887195677, 36, 110702983816931639325, 73802740270071480349, 24, 36,
  110702983818005577757, 1209186956511756887195677, 36, 110702983816931639325, 73802740270071480349, 24, 36, 110702983818005577757,
  1209186956511756887195677, 36, 110702983816931639325, 73802740270071480349, 32, 44, 110707487692510986277, 1209261319983988417822757, 4, 8,
  9447327092177165616173, 36893542436879467557, 8, 604463779160509783344165, 4722373432058086163465, 24, 36, 1813647006533308068662825,
  110696228417490780189, 36, 1209296772285070664400925, 1209294777137521766698525, 40, 56, 28, 4, 8, 1209220974310804749812781,
  110705234655746654217, 8, 36, 9903534558063047455755342869, 9903534558063047455755342869, 1813794564740891268875273, 4, 8,
  232165704266656245620933677, 110705234655746654217, 8, 36, 9903534558063047455755342869, 9903534558063047455755342869, 1813794564740891268875273,
  4, 28, 8, 1209220974310804749812781, 110705234655746654217, 8, 232165704266656245620933677, 110705234655746654217, 8, 36,
  9903534558063047455755342869, 9903534558063047455755342869, 1813794564740891268875273, 56, 28, 4, 32, 36, 1209220992553764213756989,
  1209220990301964400071229, 1209220988050164586385469, 36, 1209220992553764213756989, 32, 1209220990301964400071229, 1209220988050164586385469, 4,
  0, 19811928278456854026167255613, 24, 20, 16, 8, 12, 60, 9903539243824272554142471701, 19811928282521352689869135369, 9903543966190755423795090965,
  604463799356339362338325, 19811928279639048928352012809, 19811928279927279304503725117, 1813796863775724483903517, 8, 36,
  9903534558063047455755342869, 9903534558063047455755342869, 19811928278765368196024239113, 36, 9903572816610256329433355285, 28, 32,
  9903568094243773459779752981, 19811876668229693275418140193, 0, 4, 19811928278456871621549359677, 8, 9903534558063047455755342869,
  19811928278765368196024239113, 60, 9903595912222066989985699349, 29717247818434368223888547373, 40, 24, 20, 1813794573748090523618333,
  110705235205502468121, 28, 232165705719049533261876781, 110705235342941421597, 24, 20, 154775563518470244780084781, 1209184089988048787344429, 28,
  19811323817287687966484860461, 1813796575545348332126237, 20, 8, 36, 604464661795668003853333, 604464661795668003853333, 36,
  604464661795668003851285, 604464661795668003851285, 8, 36, 604464652788468749112341, 604464652788468749112337, 604464652788468749110277, 40, 20, 8,
  110705235068063514637, 1813794571496290709931545, 8, 1813794571408329779709485, 604464652788468749110277, 24, 28, 20, 1209184092151887670808089,
  1209184092151887670808089, 154775563806700620931862061, 28, 19811323817287687966484860461, 1813796575545348332126237, 32, 44,
  110707487692510986277, 1209261319983988417822757, 8, 4, 9447327092177165616173, 604463779160509783344165, 4, 36893542436879467557,
  4722373432058086163465, 24, 36, 1813647006533308068662825, 110696228417490780189, 36, 1209296772285070664400925, 1209294777137521766698525, 24, 36,
  1813647006533308068662825, 110696228417490780189, 36, 1209296772285070664400925, 1209294777137521766698525, 48, 60, 4722402670408764496437,
  110709740042080550965, 4, 8, 32, 36, 604465801153469504033333, 1209261608179180205834277, 9447327092177165616181, 36893542299440514089, 8,
  604463779160509783344165, 32, 36, 604465801153469504033333, 1209261608179180205834277, 4722373467242458252297, 4, 8, 32, 44, 110707487692510986277,
  1209261319983988417822757, 9447327092177165616173, 36893542436879467557, 8, 604463779160509783344165, 32, 44, 110707487692510986277,
  1209261319983988417822757, 4722373432058086163465, 48, 52, 4722398166809137125941, 4722398061256020859445, 36, 73809496081829593129, 32,
  1209298501668702978576901, 36893665857059689013, 48, 52, 4722398166809137125941, 4722398061256020859445, 36, 36893718083862008869, 32, 28, 4, 8,
  9447327092177165616181, 36893542711757374517, 4722386978041340366857, 36893648264873644085, 36893665857059689013, 48, 52, 4722398166809137125941,
  4722398061256020859445, 36, 73809496081829593129, 32, 1209298501668702978576901, 36893665857059689013, 48, 52, 4722398166809137125941,
  4722398061256020859445, 36, 36893718083862008869, 32, 4, 8, 9447327092177165616181, 36893542711757374517, 4722389229841154052617,
  36893665857059689013, 48, 52, 4722398184401323170357, 4722398061256020859445, 4, 8, 32, 36, 36893665857059689013, 604465794398070062977589,
  9447327092177165616181, 36893542711757374517, 8, 604463779160509783344165, 32, 36, 36893665857059689013, 604465794398070062977589,
  4722373467242458252297, 48, 52, 4722398184401323170357, 4722398061256020859445, 36, 1209298501719966719213609, 9447615498474187920437]

theorem side4_linf_run2 : run .linf 2 90 17 side4Env [] side4_linf_2 (side4Paths2.map fun P => ⟨[P], []⟩) = true := Run.run_one (by decide +kernel)

def side4_linf_3 : List ℕ := [
  48, 52, 4722398166809137125941, 4722398061256020859445, 36, 73809496081829593129, 32, 1209298501668702978576901, 36893665857059689013, 48, 52,
  4722398166809137125941, 4722398061256020859445, 36, 36893718083862008869, 32, 28, 9447327199242110373925, 9447327199242110373905,
  36893665857059689013, 4, 8, 36893541887123653677, 36893542436879467565, 8, 604463779195694155432989, 36893542436879467549, 44, 40,
  110705235892697235501, 36893700766553871901, 48, 36893718358739916845, 36893717808984102957, 44, 40, 110707487692510986285,
  14170558425879329904157, 56, 24, 28, 29717847556665111856623390257, 29717847556653852857554964017, 154775565815306054739433521,
  4350494969665689629, 40, 44, 110705235892697235501, 8, 4, 12, 1813794566869545780250157, 24, 28, 110705235342941421597, 14170270124449387446301,
  28, 110705235341867417629, 1209184092081518926630409, 1813794564582561594475529, 4, 110705234655746654217, 1813794564740891268875273, 24, 28,
  1813796575545348332126237, 1209187244706948675207197, 28, 9446750720623817195549, 4, 1209184092081518926630409, 44, 9446750790992561373229,
  9903577059651875458603161093, 24, 28, 36893630397809692205, 36893629848053878317, 20, 36893612805623647277, 36893612805623647261, 40, 28,
  1813794582702513220227105, 73804992208398123041, 28, 1813796863828363578114081, 1209220992483395469578285, 44, 40, 110707487692510986285,
  14170558425879329904157, 56, 28, 24, 29717852279031594726276992561, 29717852279031577129829535261, 19811876887579764926312093745,
  4350494969665689629, 40, 28, 24, 110705235342941421597, 232165705727985963174923809, 110705235755258282017, 28, 1209224138247735188586529,
  9447039002537495629869, 8, 4, 44, 1813831458070709021967409, 28, 9447038861801013904429, 24, 1813833757263734439149597, 36893630397809692205,
  604463779195694155433005, 4, 36893542436879467565, 28, 4722373432058077774857, 44, 1813831458246630882411529, 24, 1813833757263734439149597,
  36893630397809692205, 40, 8, 4, 14170270035799114253357, 604463779195694155433005, 4, 36893542436879467565, 4722373432195541894153, 28,
  9447039003776527106081, 1813796863828501042036769, 44, 8, 4, 1813831458070709021967409, 1813831458070709021967369, 4, 110707486455560405001,
  1813831458246630882411529, 28, 56, 154780288184040725272074289, 71278511835889099610161, 24, 29717852279031594726276992545,
  29717852279031594726276992561, 40, 44, 110705235892697235501, 8, 12, 1813794566869545780250157, 36, 32, 28, 4, 1209220974310804749812781,
  1813794564582561594475529, 1813794578128544848678929, 1813794580380344662364689, 1813794582632144476050449, 4, 110705234655746654217,
  1813794564740891268875273, 56, 52, 48, 28, 36, 1209220992553764213756989, 32, 1209220990301964400071229, 1209220988050164586385469, 36,
  19811928281080200809110574141, 24, 4, 8, 12, 19811928279037818378098050605, 44, 19811928281647671957541361681, 19811928281339157787684378121,
  9903534890397174758306944517, 8, 9903534558065299255569028121, 19811928278765368196024239113, 1813796863775724483903517,
  9903586836428486324496569861, 9903591558794969194150172165, 36, 9903572816612508129247040537, 32, 9903568094246025259593438233, 28,
  19811876668229693275418140193, 60, 0, 4, 19811928278456871621549359677, 8, 9903534558065299255569028121, 19811928278765368196024239113,
  29717247818402860621879057985, 29717247818434368223888547373, 24, 28, 4, 1209184092081518926630409, 8, 604463779195694155433005,
  4722373432058069386269, 4722384691057137815069, 28, 44, 232170428085532402915479089, 19811328539654170836138462769, 36893630397809692205, 28, 40,
  44, 110705235892697235501, 24, 1813794584936583375361585, 29717210479612292847196903453, 36893683174367825949, 24, 4722384691057137815069,
  36893630397809692205, 44, 28, 4, 24, 1209184092081518926630409, 29717814794948147573181323293, 8, 1813831458070709021967369,
  1813831458246630882411529, 24, 1209184092257578267971101, 29717814796389299453939882013, 24, 16, 19811272130674973935904558641,
  19811272130674973935904561201, 28, 19811328539654188433651273265, 29717847556665111856623390257, 40, 44, 110705235892697235501, 24,
  1813794584936720847869485, 28, 232165705719049533261876781, 110705235342941421597, 24, 28, 4, 1209184092081518926630409, 44,
  154775564959622125538971181, 9903577059651875458603161093, 154775563806700620931862061, 28, 19811323817287687966484860461,
  1813796575545348332126237, 24, 36, 110702983818005577757, 1209186956511756887195677, 36, 110702983816931639325, 73802740270071480349, 32, 44,
  110707487692510986277, 1209261319983988417822757, 8, 4, 9447327092177165616173, 604463779160509783344165, 4, 36893542436879467557,
  4722373432058086163465, 32, 44, 110707487692510986277, 1209261319983988417822757, 4, 8, 9447327092177165616173, 36893542436879467557, 8,
  604463779160509783344165, 4722373432058086163465, 24, 36, 1813647006533308068662825, 110696228417490780189, 36, 1209296772285070664400925,
  1209294777137521766698525, 48, 60, 4722402670408764496437, 110709740042080550965, 32, 36, 604465801153469504033333, 1209261608179180205834277, 8,
  4, 9447327092177165616181, 604463779160509783344165, 4, 36893542299440514089, 4722373467242458252297, 4, 8, 32, 44, 110707487692510986277,
  1209261319983988417822757, 9447327092177165616173, 36893542436879467557, 8, 604463779160509783344165, 32, 44, 110707487692510986277,
  1209261319983988417822757, 4722373432058086163465, 48, 52, 4722398166809137125941, 4722398061256020859445, 36, 73809496081829593129, 32,
  1209298501668702978576901, 36893665857059689013]

theorem side4_linf_run3 : run .linf 2 90 17 side4Env [] side4_linf_3 (side4Paths3.map fun P => ⟨[P], []⟩) = true := Run.run_one (by decide +kernel)

def side4_linf_4 : List ℕ := [
  48, 52, 4722398166809137125941, 4722398061256020859445, 36, 36893718083862008869, 32, 28, 4, 8, 9447327092177165616181, 36893542711757374517,
  4722386978041340366857, 36893648264873644085, 36893665857059689013, 48, 52, 4722398166809137125941, 4722398061256020859445, 36,
  73809496081829593129, 32, 1209298501668702978576901, 36893665857059689013, 48, 52, 4722398166809137125941, 4722398061256020859445, 36,
  36893718083862008869, 32, 4, 8, 9447327092177165616181, 36893542711757374517, 4722389229841154052617, 36893665857059689013, 36, 52, 48,
  14169982000586276477461, 1813757696075318350060073, 8, 12, 36893559204431791653, 604464094342114955172877, 12, 36893559204431791633,
  36893559754187605525, 32, 36893664757548061221, 36893664757548061201, 36, 40, 36893682899489920021, 36893682349734106129, 32, 36893664757548061221,
  36893664757548061201, 36, 32, 28, 24, 4722384585641485667881, 36893629573175971345, 36893647165362016273, 14169981929667776483861, 32, 16,
  29716629186673229639601623593, 20, 154766118495163334415878677, 73798236120688164885, 36893664757548061201, 52, 48, 32, 14169693770210124765717,
  36, 16, 1813722212143348073431077, 20, 9446174224412263645205, 73798236120688164885, 36893664757548061201, 60, 604466981149476100316181,
  604466981149476100316177, 44, 36893735126292240405, 40, 36893699941920151057, 16, 12, 8, 32, 14169693593053461807117, 36,
  1813722212143348073431077, 36893664757548061201, 36893559204431791633, 0, 77371437222266380570853905, 8, 604464094342114955172877, 32,
  1813720780069172785710597, 36, 1813722212143348073431077, 36893664757548061201, 12, 1209110298560930863122489, 36, 20, 32, 60, 8,
  604464094342114955172877, 0, 4, 9446174153492689584697, 56, 19810063533710455894990331965, 1813720804838970736254017, 1813720780069172785710597,
  604465828227971493208081, 9446174224412263645205, 73798236120688164885, 9446174311822363989049, 52, 48, 0, 604466976645876472939025,
  604466976645876472939029, 604466976610692100856837, 40, 44, 16, 604466395681524542016037, 20, 1209110300777546304719381, 73798236120688164885,
  36893699941920151057, 44, 604466400185124169391117, 16, 604466379989294590400533, 32, 36, 60, 1813720793579971667825217, 56,
  604467553106628776500237, 604467264876252624723989, 9446174311822363989049, 36893682349734105621, 12, 8, 36893559204431791653,
  36893559204431791633, 16, 36893576796617836561, 36893577346373650453, 20, 32, 1813720791187434365783065, 1813722500356132047487001, 32,
  73800488333892714521, 1209147200968316615134245, 32, 20, 36893647715117829141, 16, 12, 28, 24, 52, 4722382333704199474233, 4722382333704199474233,
  36893629573175971345, 36893647165362016273, 36893576796617836561, 73800487920501915669, 36, 14169981929667776483861, 36893664757548061201, 20, 32,
  14169693680736367807513, 1209149774775503657959449, 32, 110700731880752873497, 16, 154770840850369612815010341, 73800487920501915669, 20, 32,
  14169693680736367807513, 1209149774775503657959449, 32, 110700731880752873497, 16, 154770840850369612815010341, 73800487920501915669, 20, 16,
  73800487920501915669, 36, 52, 48, 14169982000586276477457, 1813757696075318350060073, 44, 73800489020013543473, 48, 1813757693823518536374313,
  4722398078848181738041, 9446462453824245205545, 36, 16, 14169981858335969774105, 32, 52, 48, 14169982000586276477457, 1813757696075318350060073,
  44, 604466958701846707571749, 48, 1813757693823518536374313, 4722398078848181738041, 14169981928704713953817, 32, 1209150063023609468026917,
  1209150063023471995781157, 20, 32, 73800488332818776089, 52, 4722386907672571022393, 604465524182089090866213, 32, 14169693681151830982681,
  1813722500356269511409689, 20, 16, 73800487920501915669, 36, 1209147194160140615944745, 154770840852497998840927273, 36, 32, 28,
  232160983638474469539320857, 9903563038680723958933097477, 232160983935765223166710297, 32, 29716633909041964309068911145,
  1209150063023471995781157, 52, 32, 56, 60, 48, 14169693770210124765713, 1813720802622355294657081, 604467553071444404411397,
  14169693787802310810641, 28, 604465535458811341970437, 24, 604465247228435190193157, 20, 1209147196552677917985849, 0,
  9903553889095663398978391053, 19810709909372464729442749445, 32, 48, 0, 28, 1813720791099473435562041, 20, 24, 604465247351580492504077,
  1209147196552677917985849, 29716001441380579716893245977, 28, 1813720791099473435562041, 24, 604465247351580492504077, 20,
  1209147196552677917985849, 1813720786824572226767877, 4722398078848173349433, 20, 19810667742121848267944107045, 28, 604465535581956644281357, 24,
  604465247351580492504077, 0, 29716029445285462668080057349, 29716029445285480263462161413, 52, 48, 4, 56, 44, 604466688397908135117841, 8,
  604463779072548853128209, 60, 0, 604463490842172701350929, 20, 16, 73800487920501915669, 24, 28, 32, 36, 1813720793579971667825217, 40,
  73800488745135636525, 4722391323448732292153, 604465535458811341970437, 604465247228435190193157, 1209147196552677917985849, 40,
  9903577205780172567893904389, 32, 36, 1813720793579971667825217, 4722391323448732292153, 1209149774810688030048293, 604467553071444404411397,
  604467264858660438672401, 56, 44, 604466688397908135117853, 60, 20, 16, 73800487920501915669, 24, 28, 32, 36, 1813720793579971667825217, 40,
  73800488745135636525, 4722391323448732292153, 604465535458811341970437, 604465247228435190193157, 1209147196552677917985849, 40,
  9903577205780172567893904389, 32, 36, 1813720793579971667825217, 4722391323448732292153, 1209149774810688030048293, 604467553071444404411397,
  604467264858660438672413, 604466976610692100856837, 20, 24, 28, 32, 0, 1813720791099473435562041, 1813720791099473435562041,
  604465535476403528014865, 604465247246027376237585, 1209147196552677917985849, 48, 9903586650513138307201108997, 32, 0, 28,
  1813720791099473435562041, 29716001441380579716893245977, 1813720802358472503990841, 28, 604465535476403528014865, 24, 604465247246027376237585, 0,
  29716029445285462668080057349, 29716029445285480263462161413, 16, 20, 73798236120688164885, 4722380152273121577493, 36, 20,
  232160982771567127305390633, 24, 604464938731860715244037, 232160983071020916490504725, 32, 19810110169673547618185122345,
  19810110169673547618185122325, 16, 20, 73798236120688164885, 4722380152273121577493, 32, 20, 1813720784414718614833701,
  29716001442531249421686280725, 36, 29716024723774663726561497621, 19810105447307064748531520021]

theorem side4_linf_run4 : run .linf 2 90 17 side4Env [] side4_linf_4 (side4Paths4.map fun P => ⟨[P], []⟩) = true := Run.run_one (by decide +kernel)

def side4_linf_5 : List ℕ := [
  16, 20, 73798236120688164885, 36, 1209110300742499413527061, 19810063167380906805232470569, 36, 20, 29716605794760592295090000917, 24,
  604464938731860715244037, 29716605833095232323267725845, 32, 19810110169673565215697932841, 19810110169673547618185122325, 16, 20,
  73798236120688164885, 32, 1813720784484811482860053, 154766118492770527563024933, 32, 20, 232156260405084257651788325, 24,
  604464938731860715244037, 232156260702286245957863957, 36, 19810105447316071947786261013, 19810105447307064748531520021, 16, 20,
  73798236120688164885, 32, 1813720784484811482860053, 154766118492770527563024933, 40, 44, 9903577426852871076256745989, 604466379883741474130437,
  32, 44, 52, 604466400149939797302277, 604466400167531983346705, 3803648198811103929733627975717, 19810105447595295124683231765, 48, 60,
  4722402670408764496437, 110709740042080550965, 44, 36893718221300963369, 32, 36, 604465798901669690348085, 1209261608179180205834277,
  9447327269610854553605, 44, 32, 110707487692510986277, 110707487691437047845, 48, 36893718358739916837, 4, 604466661464271301122053,
  604466661464271301122053, 48, 52, 4722398166809137125941, 4722398061256020859445, 36, 73809496081829593129, 32, 1209298501668702978576901,
  36893665857059689013, 48, 52, 4722398166809137125941, 4722398061256020859445, 36, 36893718083862008869, 32, 28, 9447327199242110373893,
  36893648264873644085, 36893665857059689013, 48, 52, 4722398166809137125941, 4722398061256020859445, 36, 73809496081829593129, 32,
  1209298501668702978576901, 36893665857059689013, 48, 52, 4722398166809137125941, 4722398061256020859445, 36, 36893718083862008869, 32,
  9447327216834296418821, 36893665857059689013, 48, 60, 4722402670408764496437, 110709740042080550965, 44, 36893718221300963369, 32, 36,
  604465798901669690348085, 1209261608179180205834277, 9447327269610854553605, 44, 32, 110707487692510986277, 110707487691437047845, 48,
  36893718358739916837, 4, 604466661464271301122053, 604466661464271301122053, 48, 52, 4722398166809137125941, 4722398061256020859445, 36,
  73809496081829593129, 32, 1209298501668702978576901, 36893665857059689013, 48, 52, 4722398166809137125941, 4722398061256020859445, 36,
  36893718083862008869, 32, 28, 9447327199242110373893, 36893648264873644085, 36893665857059689013, 48, 52, 4722398166809137125941,
  4722398061256020859445, 36, 73809496081829593129, 32, 1209298501668702978576901, 36893665857059689013, 48, 52, 4722398166809137125941,
  4722398061256020859445, 36, 36893718083862008869, 32, 9447327216834296418821, 36893665857059689013, 4, 8, 36893541474806793261,
  36893542436879467565, 8, 36893541612245746705, 36893542436879467537, 4, 8, 36893541474806793261, 36893542436879467565, 8, 36893541612245746705,
  36893542436879467537, 4, 8, 36893541474806793261, 36893542436879467565, 8, 36893541612245746705, 36893542436879467537, 4, 8, 36893541474806793261,
  36893542436879467565, 8, 36893541612245746705, 36893542436879467537, 40, 48, 110705236030136188973, 4722395844640562484781, 16, 20,
  1813795999049411656482837, 1209113457695469464780821, 20, 9446174224687141552149, 73798236120688164885, 52, 56, 36893752718478285861,
  604467267128052438408721, 56, 36893752718478285841, 36893753268234099733, 36, 40, 36893682899489920021, 36893682349734106129, 32,
  36893664757548061221, 36893664757548061201, 36, 32, 28, 24, 4722384585641485667881, 36893629573175971345, 36893647165362016273,
  14169981929667776483861, 32, 16, 29716629186673229639601623593, 20, 154766118495163334415878677, 73798236120688164885, 36893664757548061201, 52,
  56, 32, 4722400348240173079613, 36, 16, 1813722212143348073431077, 20, 1209110300830322862852629, 73798236120688164885, 36893664757548061201,
  604467267128052438408721, 56, 36893752718478285841, 32, 14169693787939749764117, 36, 16, 1813722212143348073431077, 20, 1209110300830322862852629,
  73798236120688164885, 36893664757548061201, 40, 44, 16, 604466395681524542016037, 20, 1209110300777546304719381, 73798236120688164885,
  36893699941920151057, 32, 4, 16, 0, 56, 604463488607965073710613, 8, 604463779090141039173141, 12, 604464067320517190943761,
  604464355550893342721041, 604463497685533072622609, 0, 56, 604463488607965073710613, 8, 604463779090141039173141, 48, 604463803859938989709845, 20,
  44, 1209110300777546304719381, 1209110316416999698208821, 73798236120688164885, 1209110291647201747665417, 8, 36893541612245746705, 56,
  604463808363538617074709, 28, 24, 20, 604464941212358947505173, 16, 14169693628237833895957, 73798236120688164885, 36893629573175971345,
  1813720791117065621606409, 36893682349734105621, 4, 8, 36893541612245746737, 36893542711757374517, 8, 36893541612245746705, 36893542574318421013]

theorem side4_linf_run5 : run .linf 2 90 17 side4Env [] side4_linf_5 (side4Paths5.map fun P => ⟨[P], []⟩) = true := Run.run_one (by decide +kernel)

def side4_linf_6 : List ℕ := [
  28, 16, 4, 52, 56, 0, 60, 604463488607965073711121, 604467526085031012271121, 4722371074842586776073, 604467237854654860499985,
  29715396945322027343971425301, 110698479531183308809, 110698479942426230805, 16, 1209112593039525356568597, 73798236395566071829, 28, 16, 4, 0, 56,
  604463488607965073710613, 8, 604463779090141039173141, 12, 604464067320517190943761, 604464355550893342721041, 4722371074842586776073,
  110698479531183308809, 110698479942426230805, 16, 1209112593039525356568597, 73798236395566071829, 28, 44, 48, 4722395844640537319477,
  604466686163700507482645, 48, 36893717534106195985, 14169405522104348055573, 16, 1209112593039525356568597, 73798236395566071829, 28, 52, 56,
  4722400348240164691005, 604467267128052438408721, 56, 36893752718478285841, 14169405557563598052373, 16, 1209112593039525356568597,
  73798236395566071829, 28, 52, 56, 4722400348240164691005, 604467267128052438408721, 56, 36893752718478285841, 14169405557563598052373, 16,
  1209112593039525356568597, 73798236395566071829, 28, 52, 56, 4722400348240164691005, 604467267128052438408721, 56, 36893752718478285841,
  14169405557563598052373, 16, 1209112593039525356568597, 73798236395566071829, 28, 16, 4, 0, 56, 604463488607965073710613, 8,
  604463779090141039173141, 12, 604464067320517190943761, 604464355550893342721041, 4722371074842586776073, 110698479531183308809,
  110698479942426230805, 16, 1209112593039525356568597, 73798236395566071829, 28, 52, 56, 4722400348240164691005, 604467267128052438408721, 56,
  36893752718478285841, 14169405557563598052373, 16, 1209112593039525356568597, 73798236395566071829, 28, 16, 4, 0, 56, 604463488607965073710613, 8,
  604463779090141039173141, 12, 604464067320517190943761, 604464355550893342721041, 4722371074842586776073, 110698479531183308809,
  110698479942426230805, 16, 1209112593039525356568597, 73798236395566071829, 4, 8, 36893541474806793261, 36893542436879467565, 8,
  36893541612245746705, 36893542436879467537, 4, 8, 36893541474806793261, 36893542436879467565, 8, 36893541612245746705, 36893542436879467537, 4, 8,
  36893541474806793261, 36893542436879467565, 8, 36893541612245746705, 36893542436879467537, 4, 8, 36893541474806793261, 36893542436879467565, 8,
  36893541612245746705, 36893542436879467537, 40, 48, 110705236030136188973, 4722395844640562484781, 20, 24, 1209150351202309562698773,
  36893611980989926417, 16, 154770840850404797187099181, 73800487920501915669, 16, 12, 36893576796617836581, 36893576796617836561, 20,
  36893594938559695381, 73800487920501915669, 20, 32, 1813720791187434365783065, 1813722500356132047487001, 32, 73800488333892714521,
  1209147200968316615134245, 32, 20, 36893647715117829141, 16, 36, 1813757677902452693666345, 19810667628849562240135009321, 73800487920501915669,
  36, 14169981929667776483861, 36893664757548061201, 20, 32, 14169693680736367807513, 1209149774775503657959449, 16, 56, 4722380081904385788477,
  4722380081904385788477, 73800487920501915669, 20, 32, 14169693680736367807513, 1209149774775503657959449, 16, 32, 110700731880752873497,
  154770840850369612815010341, 73800487920501915669, 40, 48, 110705236030136188973, 4, 8, 56, 604463779125325411261981, 604463779125325411261981,
  110705234655746654217, 36, 24, 14170270177225945579561, 73802740408584437801, 1813794582596960103961609, 36, 604466105234532948645389, 24,
  1813796575597987418013737, 9446750773400375328809, 24, 36, 110702983818005577757, 1209186956511756887195677, 36, 110702983816931639325,
  73802740270071480349, 24, 36, 110702983818005577757, 1209186956511756887195677, 36, 110702983816931639325, 73802740270071480349, 24, 36,
  110702983818005577757, 1209186956511756887195677, 36, 110702983816931639325, 73802740270071480349, 24, 36, 110702983818005577757,
  1209186956511756887195677, 36, 110702983816931639325, 73802740270071480349, 24, 36, 110702983818005577757, 1209186956511756887195677, 36,
  110702983816931639325, 73802740270071480349, 32, 44, 110707487692510986277, 1209261319983988417822757, 56, 44, 110707487691437047845,
  73807244556893749297, 4, 8, 604463779160509783350821, 36893542436879467557, 8, 604463779160509783344165, 604463808433907361252389, 24, 36,
  1813647006533308068662825, 110696228417490780189, 36, 1209296772285070664400925, 1209294777137521766698525, 40, 56, 28, 4, 8,
  1209220974310667285693501, 110705234655746654217, 8, 36, 9903534558063047455755342869, 9903534558063047455755342869, 1209220974539365704270857, 4,
  44, 232165706890003028564252205, 232165706860729630986343981, 44, 232165706890003028564252205, 1813794584848759917647405, 4, 28, 8,
  1209220974310667285693501, 110705234655746654217, 44, 1813794585077458336224813, 232165706860729630986343981, 44, 1813794585077458336224813,
  1813794584848759917647405, 28, 56, 36, 1209220992553764213756989, 32, 1209220990301964400071229, 1209220988050164586385469, 36,
  9903572816610256329433355285, 32, 9903568094243773459779752981, 19811876668229693275418140193, 4, 56, 8, 19811928278745084402318967869,
  604463799356339362338325, 8, 19811928278745101997701071933, 604463799356339362338325, 56, 8, 36, 9903534558063047455755342869,
  9903534558063047455755342869, 19811928278774375395278980105, 36, 9903572816610256329433355285, 8, 9903534558063047455755342869,
  9903535037678393372203684885]

theorem side4_linf_run6 : run .linf 2 90 17 side4Env [] side4_linf_6 (side4Paths6.map fun P => ⟨[P], []⟩) = true := Run.run_one (by decide +kernel)

def side4_linf_7 : List ℕ := [
  40, 24, 20, 1813794573748090523618333, 110705235205502468121, 28, 232165705719049533261876781, 110705235342941421597, 24, 20,
  154775563518470244780084781, 1209184089988048787344429, 28, 19811323817287687966484860461, 1813796575545348332126237, 40, 24, 20,
  1813794573748090523618329, 110705235205502468121, 20, 604464941124398017285165, 1813794573660129593396269, 24, 20, 604464952277843969444909,
  604464952277843969447445, 20, 604464941124398017285165, 604464941018844901021205, 40, 24, 28, 20, 1209184092151887670808089,
  1209184092151887670808089, 1813794575999890337304093, 28, 232165705719049533261876781, 110705235342941421597, 24, 28, 20,
  1209184092151887670808089, 1209184092151887670808089, 154775563806700620931862061, 28, 19811323817287687966484860461, 1813796575545348332126237,
  32, 44, 110707487692510986277, 1209261319983988417822757, 44, 110707487691437047845, 56, 73807244556893749297, 4, 8, 604463779160509783350821,
  36893542436879467557, 8, 604463779160509783344165, 604463808433907361252389, 24, 36, 1813647006533308068662825, 110696228417490780189, 36,
  1209296772285070664400925, 1209294777137521766698525, 24, 36, 1813647006533308068662825, 110696228417490780189, 36, 1209296772285070664400925,
  1209294777137521766698525, 20, 16, 73800487920501915669, 36, 73800487921575919637, 9446462453824245205545, 36, 16, 14169981858335969774105, 56, 32,
  1813757687085711281361469, 14169981928704713953817, 9903549203633910083627190789, 32, 1209150063023609468026917, 1209150063023471995781157, 20, 32,
  73800488332818776089, 36, 154770842014550116490285593, 73800488470257729573, 32, 14169693681151830982681, 1813722500356269511409689, 20, 16,
  73800487920501915669, 36, 1209147194160140615944745, 154770840852497998840927273, 36, 16, 232160982782843718559861273, 32, 56,
  1813757687085711281361469, 9903549203622668676744809485, 232160983935765223166710297, 32, 29716633909041964309068911145, 1209150063023471995781157,
  20, 16, 73800487920501915669, 56, 32, 1209147194160278080064061, 52, 48, 24, 28, 1209147201038685359312949, 1209147198786885545627189,
  1209147196535085731941429, 1209147212174539125430837, 73800489157452496953, 1209147194160140615944765, 32, 4, 24, 9903553446373805629949217805, 28,
  9903558169033022475381902865, 29716001441673313692672328737, 8, 9903534704481826741011483657, 24, 1813720786613465994234889, 28,
  1813720788865265807920649, 1813720791117065621606409, 36, 56, 52, 48, 16, 12, 8, 4, 0, 60, 19810709907902021855724175937,
  19810709911939516517043936829, 29716029443826296388812014089, 9903534704481826741011483657, 9903539426848309610665085961,
  19810709908793752177325639705, 29716029444999501687124134461, 29716029447285078498014665269, 9903591372879621176854711305, 16,
  19810709909086486153104722457, 9903549203622668676744809485, 1209149774793095844003877, 20, 16, 73800487920501915669, 4, 0, 48,
  1209147185152941361201717, 1209147185152941361201717, 1209147185152941361201673, 8, 73800487508185055241, 56, 1209147187563070849287177, 32,
  1813720777834965158069257, 36, 48, 40, 44, 1209147210045884614055961, 73800488745135636525, 73800488607696683045, 154770842021305515931341337,
  154770841996535717980803609, 4, 24, 9903553446373805629949217805, 28, 9903558169033022475381902865, 32, 29716001441673313692672328737, 36, 40, 44,
  48, 19810709911099595186539337753, 29716029446147919592103612953, 9903577205780172567893904393, 1209149774810688030048293,
  19810709910210134260133663257, 8, 9903534704481826741011483657, 32, 24, 1813720786613465994234889, 28, 1813720788865265807920649,
  1813720791117065621606409, 56, 19810709908221795024649585673, 29716029444134810558668997641, 16, 20, 73798236120688164885, 4722380152273121577493,
  4, 604464362376661527824957, 36, 232160982483336751153677353, 32, 19810110169673547618185122345, 19810110169673547618185122325, 16, 20,
  73798236120688164885, 4722380152273121577493, 4, 604464362376661527824957, 32, 29716001294957296832009605653, 36, 29716024723774663726561497621,
  19810105447307064748531520021, 16, 20, 73798236120688164885, 36, 1209110300742499413527061, 19810063167380906805232470569, 36, 44,
  29716606017562673060363504149, 29716606016121521179604945429, 32, 19810110169673565215697932841, 19810110169673547618185122325, 16, 20,
  73798236120688164885, 56, 1209110300830322862852629, 1209110300830322862852629, 32, 4, 29716001294957332144156969537, 232156260116853881500075045,
  36, 19810105447316071947786261013, 19810105447307064748531520021, 16, 20, 73798236120688164885, 32, 1813720784484811482860053,
  154766118492770527563024933, 32, 4, 29716001294957332144156969537, 232156260116853881500075045, 4, 19810105445865965776325970497,
  19810105445865912867772957733, 4, 8, 36893541474806793261, 36893542436879467565, 8, 36893541612245746705, 36893542436879467537, 4, 8,
  36893541474806793261, 36893542436879467565, 8, 36893541612245746705, 36893542436879467537, 4, 8, 36893541474806793261, 36893542436879467565, 8,
  36893541612245746705, 36893542436879467537, 4, 8, 36893541474806793261, 36893542436879467565, 8, 36893541612245746705, 36893542436879467537, 16,
  12, 40, 48, 110705236030136188973, 4722395844640562484781, 1209113457677877278736401, 36893576796617836561, 20, 40, 48, 110705236030136188973,
  4722395844640562484781, 9446174224687141552149, 73798236120688164885, 4, 8, 36893541474806793261, 36893542436879467565, 8, 36893541612245746705,
  36893542436879467537, 4, 8, 36893541474806793261, 36893542436879467565, 8, 36893541612245746705, 36893542436879467537, 4, 8, 36893541474806793261,
  36893542436879467565, 8, 36893541612245746705, 36893542436879467537, 4, 8, 36893541474806793261, 36893542436879467565, 8, 36893541612245746705,
  36893542436879467537, 40, 48, 110705236030136188973, 4722395844640562484781, 16, 20, 1813796287279787808260117, 154770840850404797187099181, 20,
  19810719353810427097775082005, 73800487920501915669, 40, 12, 16, 110705234930624561169, 1813794569121345593935917, 16, 1813794569244490896246801,
  1813794569121345593935889, 36, 604466105234532948645389, 24, 1813796575597987418013737, 9446750773400375328809]

theorem side4_linf_run7 : run .linf 2 90 17 side4Env [] side4_linf_7 (side4Paths7.map fun P => ⟨[P], []⟩) = true := Run.run_one (by decide +kernel)

def side4_linf_8 : List ℕ := [
  24, 36, 110702983818005577757, 1209186956511756887195677, 36, 110702983816931639325, 73802740270071480349, 24, 36, 110702983818005577757,
  1209186956511756887195677, 36, 110702983816931639325, 73802740270071480349, 24, 36, 110702983818005577757, 1209186956511756887195677, 36,
  110702983816931639325, 73802740270071480349, 24, 36, 110702983818005577757, 1209186956511756887195677, 36, 110702983816931639325,
  73802740270071480349, 24, 36, 110702983818005577757, 1209186956511756887195677, 36, 110702983816931639325, 73802740270071480349, 16, 12, 32, 44,
  110707487692510986277, 1209261319983988417822757, 9447327127636415612973, 604464360160046086359077, 12, 36893577621251557413, 32, 44,
  110707487692510986277, 1209261319983988417822757, 4722377935657713534993, 24, 36, 1813647006533308068662825, 110696228417490780189, 36,
  1209296772285070664400925, 1209294777137521766698525, 32, 44, 110707487692510986277, 1209261319983988417822757, 44, 110707487691437047845, 56,
  73807244556893749297, 4, 8, 604463779160509783350821, 36893542436879467557, 8, 604463779160509783344165, 604463808433907361252389, 24, 36,
  1813647006533308068662825, 110696228417490780189, 36, 1209296772285070664400925, 1209294777137521766698525, 24, 36, 1813647006533308068662825,
  110696228417490780189, 36, 1209296772285070664400925, 1209294777137521766698525, 20, 40, 24, 73800488059014938649, 110705235205502468121, 24,
  9446462471416431250477, 1209147196499901359852589, 24, 604464941071621459151893, 40, 14170270106304315919385, 1813796287297242513735705, 20, 48,
  24, 1209147196411940429630517, 1209147196535085731941429, 44, 1209147209922739311745077, 73800488882574590001, 24, 604464941071621459151893, 36,
  14169981875928155819033, 1813759393809095094566937, 20, 56, 24, 36, 40, 110702983954370527273, 73800488607696683049, 9446462471416431250473,
  1209147196570270104030269, 4, 8, 604463779142917597306401, 604463808416315175214625, 8, 604463779142917597299745, 604463808416315175207969, 24,
  604464941071621459151893, 36, 14169981875928155819033, 1813759393809095094566937, 20, 48, 44, 73800488882574590001, 1209147209922739311745077, 24,
  1209147196411940429630517, 1209147196535085731941429, 24, 604464941071621459151893, 36, 14169981875928155819033, 1813759393809095094566937, 20, 24,
  36, 73800488059014873113, 9446462471416431250473, 56, 604464961337819782323745, 1209147196570270104030269, 24, 604464941071621459151893, 36,
  14169981875928155819033, 1813759393809095094566937, 20, 12, 73800487920501915665, 24, 36, 73800488059014873113, 9446462471416431250473, 56,
  1209147196570270104030269, 4, 8, 604463779142917597306401, 604463808416315175214625, 8, 604463779142917597299745, 604463808416315175207969, 24,
  604464941071621459151893, 36, 14169981875928155819033, 1813759393809095094566937, 20, 40, 24, 73800488059014938649, 110705235205502468121, 24,
  9446462471416431250477, 1209147196499901359852589, 24, 604464941071621459151893, 40, 14170270106304315919385, 1813796287297242513735705, 20, 12,
  73800487920501915665, 9446462454375024429101, 40, 44, 110707487692510986285, 1209150639519546160316461, 44, 14170558424641406244377,
  1209150639519408671424557, 20, 12, 73800487920501915665, 9446462454375024429101, 40, 44, 110705235892697235501, 232165706869648468713609241, 36,
  36893683174367826989, 604466105164038626350105, 20, 12, 73800487920501915665, 9446462454375024429101, 44, 40, 110707487692510986285,
  14170558424641406244377, 48, 36893718358739916845, 1209150639537138346360881, 20, 12, 73800487920501915665, 9446462454375024429101, 40, 44,
  110705235892697235501, 232165706869648468713609241, 44, 29717238372541743175915542041, 1209150351289032519647277, 20, 12, 73800487920501915665, 40,
  73800487921575985169, 9446462453824245205037, 40, 12, 14170270088712129873945, 110705235068063514641, 12, 1813796287279650327691281,
  1813796287279787808260113, 20, 12, 73800487920501915665, 40, 73800487921575985169, 9446462453824245205037, 40, 12, 14170270088712129873945,
  110705235068063514641, 12, 1813796287279650327691281, 1813796287279787808260113, 20, 52, 40, 73800489020013543469, 1209147212174539125429805, 40,
  1209147212262500055651865, 604466969890477031757325, 36, 32, 40, 1813757687015342537183789, 1813757687015342537183789, 232160983935765223166710297,
  32, 29716633909041964309068911145, 1209150063023471995781157, 20, 32, 36, 40, 1813757687015342537183789, 1813757687015342537183789,
  154770842005419503448036393, 36, 1209147203237708614865433, 73800488470257729573, 32, 36, 40, 1813757687015342537183789, 1813757687015342537183789,
  29716633909041964309068911145, 36, 232160983935765223166710297, 1209150063023471995781157, 40, 36, 20, 1209147205507100614595609,
  604466105199348576554029, 604466105199348576556565, 52, 32, 1813720802499209992345133, 20, 36, 73800488607696683049, 73800488470257729573, 36,
  604466094045902624394285, 1209149774793095844003877, 604466969890477031757325]

theorem side4_linf_run8 : run .linf 2 90 17 side4Env [] side4_linf_8 (side4Paths8.map fun P => ⟨[P], []⟩) = true := Run.run_one (by decide +kernel)

def side4_linf_9 : List ℕ := [
  20, 36, 40, 1209147205507100614595609, 73800488607696683049, 40, 604466105199348576556565, 1209147205419139684373549, 36, 40,
  604466105199348576554029, 604466094045902624394285, 40, 604466105199348576556565, 604466094045902624396845, 20, 36, 40, 1209147205489508428551193,
  73800488607696683049, 32, 154770842005419503448036393, 73800488470257729573, 36, 40, 232160984223995599318422553, 1813757689179181420647449, 32,
  29716633909041964309068911145, 1209150063023471995781157, 20, 36, 40, 1209147205489508428551193, 73800488607696683049, 32,
  154770842005419503448036393, 73800488470257729573, 36, 40, 232160984223995599318422553, 1813757689179181420647449, 32,
  29716633909041964309068911145, 1209150063023471995781157, 20, 12, 73800487920501915665, 4, 0, 60, 1209147185064980430979649, 56,
  1209147216607770008624701, 52, 1209147214584668613516349, 1209147214584668613516313, 1209147185152941361201673, 32, 28, 16, 56, 60, 0,
  1209147194072179685722689, 1813720775583165344383497, 1813720806879664317406781, 52, 1209147214584668613516349, 1209147214584668613516313,
  1209147194160278080064009, 1813720791117065621606409, 36, 56, 154770842025809115558711833, 52, 1209147214584668613516349,
  1209147214584668613516313, 73800488470257729573, 32, 4, 24, 9903553446376057429762903053, 28, 9903558169030770675568217621,
  29716001441673313692672328737, 24, 1813720786613465994234889, 28, 1813720788865265807920649, 1813720791117065621606409, 36, 56, 4, 60, 0,
  9903529797663665732958817325, 29716029443826296388812014089, 19810709911939516517043936829, 60, 16, 0, 8, 29716029444105537161091089417, 12,
  9903539795798953683551587373, 29716029444681997913394513981, 29716029443846580182517285385, 29716029444999501687124134409,
  29716029447852532051063348797, 19810709910239407657711571481, 1209149774793095844003877, 20, 56, 4, 16, 1209147194160140615944765,
  1209147194160140615944713, 32, 8, 1813720777606266739491849, 1209147187563070849287177, 8, 19810667517302154869608678437,
  1209147187563070849287177, 4, 32, 8, 1209147187334372430709821, 1813720777834965158069309, 16, 154770840852497998840929829,
  1209147194160140615944713, 32, 8, 1813720777606266739491849, 1813720777834965158069257, 16, 154770840852497998840929829,
  154770840852497998840923173, 4, 56, 8, 9903534556910125951149345805, 9903535036525471867597687821, 32, 24, 9903553446376057429762903053, 28,
  9903558169030770675568217621, 29716001441673313692672328737, 24, 9903553446376057429762903053, 29716029445287714467893742601, 32, 8,
  1813720777606266739491849, 56, 24, 1813720786613465994234889, 28, 1813720788865265807920649, 1813720791117065621606409, 1813720777834965158069257,
  8, 29716029444105537161091089417, 56, 19810709908221795024649585673, 29716029444134810558668997641, 40, 24, 36, 14170270177225945579561, 4, 56, 8,
  604463779125325411261981, 604463808398722989170205, 8, 604463779125325411261981, 604463808416315175214625, 1813794582596960103961609, 20,
  110705235205502468121, 110705235204428464153, 36, 604466105234532948645389, 24, 1813796575597987418013737, 20, 1209184089988048787344429,
  9446750703031631151129, 24, 36, 110702983818005577757, 1209186956511756887195677, 36, 110702983816931639325, 73802740270071480349, 24, 36,
  110702983818005577757, 1209186956511756887195677, 36, 110702983816931639325, 73802740270071480349, 24, 36, 110702983818005577757,
  1209186956511756887195677, 36, 110702983816931639325, 73802740270071480349, 24, 36, 110702983818005577757, 1209186956511756887195677, 36,
  110702983816931639325, 73802740270071480349, 24, 36, 110702983818005577757, 1209186956511756887195677, 36, 110702983816931639325,
  73802740270071480349, 40, 12, 16, 1813794569121345593935889, 1813794569244490896246801, 16, 1813794569121345593935917, 110705234930624561169, 24,
  36, 604466105234532948645389, 1813796575597987418013737, 20, 1209184089988048787344429, 9446750703031631151129, 24, 36, 110702983818005577757,
  1209186956511756887195677, 36, 110702983816931639325, 73802740270071480349, 24, 36, 110702983818005577757, 1209186956511756887195677, 36,
  110702983816931639325, 73802740270071480349, 24, 36, 110702983818005577757, 1209186956511756887195677, 36, 110702983816931639325,
  73802740270071480349, 24, 36, 110702983818005577757, 1209186956511756887195677, 36, 110702983816931639325, 73802740270071480349, 24, 36,
  110702983818005577757, 1209186956511756887195677, 36, 110702983816931639325, 73802740270071480349, 48, 52, 4722398149216951081525,
  4722398026071648770613, 36, 73809496081829593129, 32, 1813871227247818550607909, 1209298501668702978576913, 20, 16, 44, 1813831465002030323468821,
  604464666316859817396781, 36893595213437602349, 28, 56, 32, 36, 40, 44, 110707487692510986285, 9447039020129681675825, 604466114311963508610565,
  36893665582181782061, 1209220988050164586385469, 32, 36, 40, 44, 110707487692510986285, 9447039020129681675825, 604466114311963508610565,
  36893665582181782061, 19811876668229693275418140193, 36893630397809691693, 40, 28, 73804992207324184609, 44, 110705235892697235501,
  232165706874152068340979745, 28, 9447039003776527106081, 1813796863828501042036769, 44, 40, 110707487692510986285, 16, 1813831478512829205583381,
  12, 1813831462609493021427761, 20, 110707486867877265429, 28, 1209220994752787469309473, 29717814796391551253753501729, 28, 56,
  154780288184040725272074289, 71278511835889099610161, 56, 29717852281040200160084236337, 71278514088247158380593, 40, 44, 110705235892697235501,
  12, 16, 56, 52, 48, 28, 32, 4, 1209220987821466167808061, 1209220987821466167808061, 1209220988050164586385469, 24, 232165705727985963174927905,
  232165705727985963174922273, 110705236167575142453, 110705236305014095929, 60, 1813794593891143544479277, 1813794594084657590967853,
  1813794569121345593935917, 16, 1813794569244490896246801, 20, 110705235068063514645, 28, 56, 52, 32, 4, 1209220987821466167808061,
  1209220987821466167808061, 1209220988050164586385469, 1209221001560963468500029, 60, 1813794593891143544479277, 1813794594084657590967853,
  110705235342941421593, 28, 56, 52, 32, 4, 1209220987821466167808061, 1209220987821466167808061, 1209220988050164586385469,
  1209221001560963468500029, 32, 36, 9903572816614759929060725789, 9903568094248277059407123485, 19811876668229693275418140193, 20, 16, 12, 24, 56,
  52, 4, 32, 19811928280474466659229241353, 19811928280503740056807149577, 32, 29717247816387499788630757385, 19811928280503757652189253641,
  9903591558794969194150172169, 19811928280206520076782800445, 19811928280206502481400696337, 19811928279341828948327663633,
  9903549057496623367267748381, 1813796863775724483903513]

theorem side4_linf_run9 : run .linf 2 90 17 side4Env [] side4_linf_9 (side4Paths9.map fun P => ⟨[P], []⟩) = true := Run.run_one (by decide +kernel)

def side4_linf_10 : List ℕ := [
  48, 52, 36893735950925961757, 8, 604466951911125455537669, 24, 28, 36893630397809692205, 36893629848053878317, 12, 4722375683857883072013,
  1209184083162280602109453, 52, 36893735950925961773, 36893735401170147885, 44, 40, 110705235892697235501, 36893700766553871901, 48,
  36893718358739916845, 36893717808984102957, 44, 40, 110707487692510986285, 14170558425879329904157, 24, 28, 29717847556665111856623390257,
  29717847556653852857554964017, 40, 154775564950614926284232753, 36, 604466107486332762330137, 32, 604465819255956610552857,
  154775564385589362329391645, 40, 44, 110705235892697235501, 24, 28, 110705235342941421597, 14170270124449387446301, 73802740546023391277, 24, 28,
  1813796575545348332126237, 1209187244706948675207197, 8, 4, 12, 16, 1209184085414080415795213, 604464375852276037916189, 9446750649154487191089,
  1209184080910480788423693, 12, 4722375701450069116429, 1209184083162280602109453, 48, 52, 60, 1813868376574945004624437, 110709740042080550965,
  4722398026071648770613, 40, 604466686198747440552453, 24, 32, 1813870362539235373154333, 1209187821185293181452317, 9446750808859625324589, 24, 36,
  110702983818005577757, 1209186956511756887195677, 36, 110702983816931639325, 73802740270071480349, 24, 28, 36893630397809692205,
  36893629848053878317, 20, 36893612805623647277, 36893612805623647261, 40, 28, 1813794582702513220227105, 73804992208398123041, 28,
  1813796863828363578114081, 1209220992483395469578285, 44, 40, 110707487692510986285, 14170558425879329904157, 28, 24,
  29717852279031594726276992561, 29717852279031577129829535261, 40, 604466384369620066441265, 19811876740005812336635418673, 40, 28, 8,
  1813794582615240466239517, 14170270176674041565213, 110705235755258282017, 28, 1209224138247735188586529, 9447039002537495629869, 8, 28, 44, 4, 0,
  60, 1209220972076459658052161, 29717814571846577432687616049, 604463493217117817340937, 0, 1209220974293075099649037, 604463776943894341748269, 4,
  16, 20, 9447038914576565406257, 36893595213437602349, 36893577621251556909, 0, 1209220974293075099649037, 604463776943894341748269, 44, 24,
  14170558354272662064673, 36893630397809692205, 24, 1813833757263734439149597, 36893630397809692205, 44, 4, 0, 12, 1813831460498430696097293,
  604464069677870120895021, 604463493217117817340445, 1813831458246630882411533, 28, 4, 0, 12, 4722375683857891460621, 604464069677870120895021,
  604463493217117817340445, 4722373432058077774861, 24, 1813833757263734439149597, 36893630397809692205, 40, 28, 73804992207324184609, 44,
  110705235892697235501, 232165706874152068340979745, 28, 9447039003776527106081, 1813796863828501042036769, 44, 8, 28, 40, 110707487692510986285,
  1209220994752787469309473, 24, 232170428096808994169949729, 29717814796391551253753567265, 28, 40, 110707487692510986285,
  1209220994752787469309473, 24, 232170428096808994169949729, 29717814796391551253753567265, 28, 8, 16, 20, 154780285589967339906209841,
  604464666369636375533581, 604464378174444595779609, 16, 20, 154780285589967339906209841, 604464666369636375533581, 20, 604464646085845866317333,
  154780285599150727376144929, 24, 29717852279031594726276992545, 29717852279031594726276992561, 8, 40, 28, 16, 20, 24, 0, 4, 60,
  1209220972076459658052161, 32, 1209220987839058353852481, 36, 604465798972166101337613, 1813794582614552290006029, 1209220974293075099649037,
  1813794575823968476859909, 1813794573607353035263021, 110705235068063514645, 110705234930624561165, 29717210441568134994984437281, 12, 28, 16, 20,
  24, 0, 4, 60, 1209220972076459658052161, 32, 1209220987839058353852481, 19811876668522427251197222957, 1209220974293075099649037,
  19811876627305483461502370349, 9447038932307197037617, 9903549057494353975268019205, 4722377953249891190797, 32, 604465510741789949560333, 60,
  19811928280505991856620834829, 29717247816419007390640246797, 604464069589909190678041, 40, 28, 4, 12, 1813794566992691082561037, 0,
  1209220976580059285423621, 604463493234710003385353, 1813794564740891268875277, 1813794582614552290005005, 4, 12, 604464087604307700155933, 0, 28,
  1209220976580059285423621, 29717247814948582112303777285, 604463493234710003385353, 604463799373931548378653, 24, 28, 32, 9446750737665173229613,
  36893647989995737133, 4722384691057137815069, 28, 44, 232170428085532402915479089, 19811328539654170836138462769, 36893630397809692205, 28, 40, 32,
  36, 8, 14170270176674041566253, 14170270176674041566253, 36893665582181782061, 36893647989995737133, 36893683174367825949, 24,
  4722384691057137815069, 36893630397809692205, 44, 40, 110707487692510986285, 24, 1209184101264777522714141, 28, 29717814794948147573181323293,
  29717814796389299453939882013, 24, 20, 16, 19811272092340333907726899249, 8, 604464378174444595779609, 12, 4722375701450069116429,
  1209184083162280602109453, 1209184090007016377945097, 28, 19811328539654188433651273265, 29717847556665111856623390257, 40, 44,
  110705235892697235501, 24, 1813794584936720847869485, 28, 232165705719049533261876781, 110705235342941421597, 24, 8, 20, 16,
  154775563221391266468071981, 604464646050661494228493, 4722382456849510173709, 12, 4722375701450069116429, 1209184083162280602109453, 28,
  19811323817287687966484860461, 1813796575545348332126237, 8, 12, 60, 28, 1209220976580059285423681, 20, 16, 44, 1813831465002030323468821,
  604464666316859817396781, 36893595213437602349, 36893630397809691693, 604464069677870120902701, 36893560029065512493, 12, 604464069677870120896013,
  60, 604464098951267698804269, 604464098951267698804269, 40, 28, 73804992207324184609, 44, 110705235892697235501, 232165706874152068340979745, 28,
  9447039003776527106081, 1813796863828501042036769, 44, 40, 110707487692510986285, 16, 1813831478512829205583381, 20, 110707486867877265429, 28,
  1209220994752787469309473, 29717814796391551253753501729, 20, 16, 9903549094678341890838173709, 604464666369636375533581, 28, 16, 8,
  604464646068253680272909, 604464646103438052361745, 2535920198997078178794218199089, 29717852279031594726276992049]

theorem side4_linf_run10 : run .linf 2 90 17 side4Env [] side4_linf_10 (side4Paths10.map fun P => ⟨[P], []⟩) = true := Run.run_one (by decide +kernel)

def side4_linf_11 : List ℕ := [
  8, 40, 36, 32, 28, 12, 60, 1209220976580059285423681, 1209220976580059285423681, 110705234793185607693, 604465510759382135604749,
  604465798989758287382029, 1813794582614552290006029, 12, 28, 60, 1209220976580059285423681, 1209220976580059285423681, 60,
  19811928279035566578284365377, 19811928279035584173666469441, 9903539612763657627960546829, 12, 604464069642685748807185, 40, 28, 4, 16,
  4722377953249891190797, 0, 20, 110705235068063514645, 24, 9447038932307197037617, 1209220985552074168077837, 604463493234710003385353,
  4722373449650263819277, 1813794582614552290005005, 16, 604464375852276037977633, 4, 20, 9903549057496623367267748381, 28, 60,
  1209220976808757704001037, 0, 24, 9447038932307197037617, 1209220985552074168077837, 604463493234710003385353, 1813796863775724483903513,
  604463799391523734423073, 48, 52, 4722398149216951081525, 4722398026071648770613, 36, 73809496081829593129, 32, 1813871227247818550607909,
  1209298501668702978576905, 48, 52, 4722398149216951081525, 4722398026071648770613, 36, 73809496081829593129, 32, 1813871227247818550607909,
  1209298501668702978576905, 48, 60, 36893770448103283241, 110709740042080550965, 44, 36893718221300963369, 28, 32, 9447038967353123541045,
  36893647852556783657, 1813870650839842788540465, 44, 8, 48, 28, 0, 32, 52, 56, 60, 604467269467813182315561, 12, 604464069660277934858281,
  604464098933675512766505, 4722400295463640112185, 1209220987803873981763641, 36893647852556783657, 4, 604463493199525631296521,
  604463776926302155703849, 14170558442233592289313, 1813831480606299344869389, 12, 604464069660277934851597, 48, 28, 4, 0, 32, 52, 56, 60,
  604467269467813182315561, 604464098933675512759849, 4722400295463640112185, 1209220987803873981763641, 36893647852556783657,
  604463493199525631296025, 1813831458246630882411533, 14170558442233592289313, 1813831480606299344869389, 28, 32, 9447038967353123541041,
  36893647852556783657, 48, 36893718221300963369, 1209224426513433184698417, 48, 60, 36893770448103283241, 110709740042080550965, 44,
  36893718221300963369, 28, 32, 9447038967353123541045, 36893647852556783657, 1813870650839842788540465, 60, 48, 4722402617632206363189, 28,
  73804992894518951989, 20, 1813870650751881858318361, 1813870650752019338887193, 48, 110709740042080550965, 28, 8, 1209221003601657049651745,
  154780288461205882756143649, 20, 1813870650751881858318361, 1813870650752019338887193, 48, 60, 4722402617632206363189, 110709740042080550965, 28,
  60, 73804992894518951989, 44, 604466693059837436895285, 40, 9903577465779734455434025501, 9447039021505077843465, 20, 1813870650751881858318361,
  1813870650752019338887193, 48, 60, 36893770448103283241, 110709740042080550965, 32, 36, 604465796649869876662837, 1209261608179180205834277, 28,
  36893647852556783657, 9447327199243184701473, 32, 44, 110707487692510986277, 1209261319983988417822757, 44, 110707487691437047845, 28,
  36893647989995737125, 24, 9447327181513559703581, 8, 4722384691057154592269, 12, 604464069660277934851597, 60, 604464098916083326715429,
  604464098916083326715429, 48, 60, 36893770448103283241, 110709740042080550965, 32, 36, 604465796649869876662837, 1209261608179180205834277, 28,
  36893647852556783657, 9447327199243184701473, 32, 44, 110707487692510986277, 1209261319983988417822757, 44, 110707487691437047845, 28,
  36893647989995737125, 24, 9447327181513559703581, 8, 4722384691057154592269, 12, 604464069660277934851597, 60, 604464098916083326715429,
  604464098916083326715429, 48, 60, 4722402670408764496437, 110709740042080550965, 44, 36893718221300963369, 32, 36, 604465796649869876662837,
  1209261608179180205834277, 9447327269611928879153, 44, 32, 110707487692510986277, 110707487691437047845, 32, 1209261319983988417822757, 48,
  36893718358739916837, 16, 154785009967483631395936305, 1209257890369589408176177, 48, 60, 4722402670408764496437, 110709740042080550965, 44,
  36893718221300963369, 32, 36, 604465796649869876662837, 1209261608179180205834277, 9447327269611928879153, 44, 32, 110707487692510986277,
  110707487691437047845, 32, 1209261319983988417822757, 48, 36893718358739916837, 16, 154785009967483631395936305, 1209257890369589408176177, 48, 52,
  4722398149216951081525, 4722398026071648770613, 24, 32, 20, 1209184094403687484493337, 8, 9446750684751176140321, 604464652788468749108781,
  154775564099434596710944309, 28, 604465233699914307866165, 604465220189115425754677, 48, 52, 4722398149216951081525, 4722398026071648770613, 36,
  73809496081829593129, 32, 1813871227247818550607909, 1209298501668702978576905, 48, 52, 4722398149216951081525, 4722398026071648770613, 36,
  73809496081829593129, 32, 1813871227247818550607909, 1209298501668702978576905, 24, 8, 20, 32, 1209184094403687484493337, 48, 52,
  4722398149216951081525, 4722398026071648770613, 154775564099434596710944309, 9446750684751176140321, 20, 32, 1209184094403687484493337, 48, 52,
  4722398149216951081525, 4722398026071648770613, 154775564099434596710944309, 604464652788468749108781, 48, 52, 4722398149216951081525,
  4722398026071648770613, 28, 604465233699914307866165, 604465220189115425754677]

theorem side4_linf_run11 : run .linf 2 90 17 side4Env [] side4_linf_11 (side4Paths11.map fun P => ⟨[P], []⟩) = true := Run.run_one (by decide +kernel)

theorem side4_l1 : side4Tab.Refuted .l1 2 9 1 16 :=
  Tab.refuted_one (T := side4Tab) rfl side4_paths (parts (part side4_l1_run0) (parts (part side4_l1_run1) (parts (part side4_l1_run2) (parts (part side4_l1_run3) (parts (part side4_l1_run4) (parts (part side4_l1_run5) (parts (part side4_l1_run6) (parts (part side4_l1_run7) (parts (part side4_l1_run8) (parts (part side4_l1_run9) (parts (part side4_l1_run10) (part side4_l1_run11))))))))))))

theorem side4_l2 : side4Tab.Refuted .l2 2 65 11 16 :=
  Tab.refuted_one (T := side4Tab) rfl side4_paths (parts (part side4_l2_run0) (parts (part side4_l2_run1) (parts (part side4_l2_run2) (parts (part side4_l2_run3) (parts (part side4_l2_run4) (parts (part side4_l2_run5) (parts (part side4_l2_run6) (parts (part side4_l2_run7) (parts (part side4_l2_run8) (parts (part side4_l2_run9) (parts (part side4_l2_run10) (part side4_l2_run11))))))))))))

theorem side4_linf : side4Tab.Refuted .linf 2 90 17 16 :=
  Tab.refuted_one (T := side4Tab) rfl side4_paths (parts (part side4_linf_run0) (parts (part side4_linf_run1) (parts (part side4_linf_run2) (parts (part side4_linf_run3) (parts (part side4_linf_run4) (parts (part side4_linf_run5) (parts (part side4_linf_run6) (parts (part side4_linf_run7) (parts (part side4_linf_run8) (parts (part side4_linf_run9) (parts (part side4_linf_run10) (part side4_linf_run11))))))))))))

end MinCert
end Peano
