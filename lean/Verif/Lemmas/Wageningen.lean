/-
Bounds on the polynomials of the B series, one for each number of blades. Generated: each polynomial minus its bound is written with non-negative
coefficients in the distances to the ends of the intervals (Bernstein form), an identity checked by `ring`.
-/
import Mathlib.Analysis.Real.Pi.Bounds
import Mathlib.Tactic.Positivity
import Mathlib.Tactic.Ring
import Mathlib.Tactic.Linarith

namespace Xdyn.Forces

theorem kt_rest_2_pos (p p' a a' : ℝ) (hp : 0 ≤ p) (hp' : 0 ≤ p') (ha : 0 ≤ a) (ha' : 0 ≤ a') : 0 ≤
      (222099359/47829690000 : ℝ) * p' ^ 6 * a' ^ 2 +
      (2832285959/23914845000 : ℝ) * p' ^ 6 * a * a' +
      (626733659/47829690000 : ℝ) * p' ^ 6 * a ^ 2 +
      (21822241193/19929037500 : ℝ) * p * p' ^ 5 * a' ^ 2 +
      (36736902263/9964518750 : ℝ) * p * p' ^ 5 * a * a' +
      (39186531383/19929037500 : ℝ) * p * p' ^ 5 * a ^ 2 +
      (21980836939/3985807500 : ℝ) * p ^ 2 * p' ^ 4 * a' ^ 2 +
      (34990319737/1992903750 : ℝ) * p ^ 2 * p' ^ 4 * a * a' +
      (1658044387/159432300 : ℝ) * p ^ 2 * p' ^ 4 * a ^ 2 +
      (4049973366638/373669453125 : ℝ) * p ^ 3 * p' ^ 3 * a' ^ 2 +
      (13045431732991/373669453125 : ℝ) * p ^ 3 * p' ^ 3 * a * a' +
      (16242855622681/747338906250 : ℝ) * p ^ 3 * p' ^ 3 * a ^ 2 +
      (1290325428188/124556484375 : ℝ) * p ^ 4 * p' ^ 2 * a' ^ 2 +
      (4307991612466/124556484375 : ℝ) * p ^ 4 * p' ^ 2 * a * a' +
      (11122263377687/498225937500 : ℝ) * p ^ 4 * p' ^ 2 * a ^ 2 +
      (604519534184/124556484375 : ℝ) * p ^ 5 * p' * a' ^ 2 +
      (2120008294708/124556484375 : ℝ) * p ^ 5 * p' * a * a' +
      (1411018356449/124556484375 : ℝ) * p ^ 5 * p' * a ^ 2 +
      (1717625192012/1868347265625 : ℝ) * p ^ 6 * a' ^ 2 +
      (6313290435724/1868347265625 : ℝ) * p ^ 6 * a * a' +
      (4304179338962/1868347265625 : ℝ) * p ^ 6 * a ^ 2 := by
  positivity

theorem kt_rest_2 (P A : ℝ) (h2 : 1 / 2 ≤ P) (h3 : P ≤ 7 / 5) (h4 : 3 / 10 ≤ A) (h5 : A ≤ 21 / 20) : 17/100 ≤
      (4398271/125000000 : ℝ) + (-1400949/62500000 : ℝ) * A + (-253607/5000000 : ℝ) * A ^ 2 + (243809/1250000 : ℝ) * P + (79057/500000 : ℝ) * P ^ 2 + (415437/1000000 : ℝ) * P ^ 2 * A + (-205399/25000000 : ℝ) * P ^ 2 * A ^ 2 + (-1881657/12500000 : ℝ) * P ^ 3 + (-583603/12500000 : ℝ) * P ^ 3 * A + (-36641/6250000 : ℝ) * P ^ 3 * A ^ 2 + (638407/100000000 : ℝ) * P ^ 6 := by
  have h := kt_rest_2_pos (P - 1 / 2) (7 / 5 - P) (A - 3 / 10) (21 / 20 - A) (by linarith) (by linarith) (by linarith) (by linarith)
  rw [← sub_nonneg]
  refine le_of_le_of_eq h ?_
  ring

theorem kt_rest_3_pos (p p' a a' : ℝ) (hp : 0 ≤ p) (hp' : 0 ≤ p') (ha : 0 ≤ a) (ha' : 0 ≤ a') : 0 ≤
      (2490207731/47829690000 : ℝ) * p' ^ 6 * a' ^ 2 +
      (1100541359/5978711250 : ℝ) * p' ^ 6 * a * a' +
      (1323512441/47829690000 : ℝ) * p' ^ 6 * a ^ 2 +
      (13889210473/9964518750 : ℝ) * p * p' ^ 5 * a' ^ 2 +
      (162549729719/39858075000 : ℝ) * p * p' ^ 5 * a * a' +
      (10067523269/4982259375 : ℝ) * p * p' ^ 5 * a ^ 2 +
      (155618014999/24911296875 : ℝ) * p ^ 2 * p' ^ 4 * a' ^ 2 +
      (3662385627619/199290375000 : ℝ) * p ^ 2 * p' ^ 4 * a * a' +
      (1029141848851/99645187500 : ℝ) * p ^ 2 * p' ^ 4 * a ^ 2 +
      (17482618254677/1494677812500 : ℝ) * p ^ 3 * p' ^ 3 * a' ^ 2 +
      (106126179251303/2989355625000 : ℝ) * p ^ 3 * p' ^ 3 * a * a' +
      (31579323333737/1494677812500 : ℝ) * p ^ 3 * p' ^ 3 * a ^ 2 +
      (1347536352593/124556484375 : ℝ) * p ^ 4 * p' ^ 2 * a' ^ 2 +
      (17122702081579/498225937500 : ℝ) * p ^ 4 * p' ^ 2 * a * a' +
      (21183941990689/996451875000 : ℝ) * p ^ 4 * p' ^ 2 * a ^ 2 +
      (612324444599/124556484375 : ℝ) * p ^ 5 * p' * a' ^ 2 +
      (4117390340351/249112968750 : ℝ) * p ^ 5 * p' * a * a' +
      (2627631087253/249112968750 : ℝ) * p ^ 5 * p' * a ^ 2 +
      (1681901026112/1868347265625 : ℝ) * p ^ 6 * a' ^ 2 +
      (5982300382549/1868347265625 : ℝ) * p ^ 6 * a * a' +
      (7819825345249/3736694531250 : ℝ) * p ^ 6 * a ^ 2 := by
  positivity

theorem kt_rest_3 (P A : ℝ) (h2 : 1 / 2 ≤ P) (h3 : P ≤ 7 / 5) (h4 : 3 / 10 ≤ A) (h5 : A ≤ 21 / 20) : 17/100 ≤
      (11639057/250000000 : ℝ) + (-1971879/62500000 : ℝ) * A + (-253607/5000000 : ℝ) * A ^ 2 + (2093953/10000000 : ℝ) * P + (79057/500000 : ℝ) * P ^ 2 + (415437/1000000 : ℝ) * P ^ 2 * A + (-616197/50000000 : ℝ) * P ^ 2 * A ^ 2 + (-1986873/12500000 : ℝ) * P ^ 3 + (-5737989/100000000 : ℝ) * P ^ 3 * A + (-329769/25000000 : ℝ) * P ^ 3 * A ^ 2 + (638407/100000000 : ℝ) * P ^ 6 := by
  have h := kt_rest_3_pos (P - 1 / 2) (7 / 5 - P) (A - 3 / 10) (21 / 20 - A) (by linarith) (by linarith) (by linarith) (by linarith)
  rw [← sub_nonneg]
  refine le_of_le_of_eq h ?_
  ring

theorem kt_rest_4_pos (p p' a a' : ℝ) (hp : 0 ≤ p) (hp' : 0 ≤ p') (ha : 0 ≤ a) (ha' : 0 ≤ a') : 0 ≤
      (4675785103/47829690000 : ℝ) * p' ^ 6 * a' ^ 2 +
      (6022493983/23914845000 : ℝ) * p' ^ 6 * a * a' +
      (2170743463/47829690000 : ℝ) * p' ^ 6 * a ^ 2 +
      (6726054749/3985807500 : ℝ) * p * p' ^ 5 * a' ^ 2 +
      (8975749379/1992903750 : ℝ) * p * p' ^ 5 * a * a' +
      (8396582009/3985807500 : ℝ) * p * p' ^ 5 * a ^ 2 +
      (696312121331/99645187500 : ℝ) * p ^ 2 * p' ^ 4 * a' ^ 2 +
      (965309849021/49822593750 : ℝ) * p ^ 2 * p' ^ 4 * a * a' +
      (1035313827311/99645187500 : ℝ) * p ^ 2 * p' ^ 4 * a ^ 2 +
      (4713400979092/373669453125 : ℝ) * p ^ 3 * p' ^ 3 * a' ^ 2 +
      (13649028957119/373669453125 : ℝ) * p ^ 3 * p' ^ 3 * a * a' +
      (7778500500727/373669453125 : ℝ) * p ^ 3 * p' ^ 3 * a ^ 2 +
      (1416848991847/124556484375 : ℝ) * p ^ 4 * p' ^ 2 * a' ^ 2 +
      (4321806579779/124556484375 : ℝ) * p ^ 4 * p' ^ 2 * a * a' +
      (5118657352889/249112968750 : ℝ) * p ^ 4 * p' ^ 2 * a ^ 2 +
      (628682860828/124556484375 : ℝ) * p ^ 5 * p' * a' ^ 2 +
      (2040388272416/124556484375 : ℝ) * p ^ 5 * p' * a * a' +
      (1243390078288/124556484375 : ℝ) * p ^ 5 * p' * a ^ 2 +
      (1680055691632/1868347265625 : ℝ) * p ^ 6 * a' ^ 2 +
      (5811417994064/1868347265625 : ℝ) * p ^ 6 * a * a' +
      (3613597147807/1868347265625 : ℝ) * p ^ 6 * a ^ 2 := by
  positivity

theorem kt_rest_4 (P A : ℝ) (h2 : 1 / 2 ≤ P) (h3 : P ≤ 7 / 5) (h4 : 3 / 10 ≤ A) (h5 : A ≤ 21 / 20) : 17/100 ≤
      (3544537/62500000 : ℝ) + (-1228223/31250000 : ℝ) * A + (-253607/5000000 : ℝ) * A ^ 2 + (1118717/5000000 : ℝ) * P + (79057/500000 : ℝ) * P ^ 2 + (415437/1000000 : ℝ) * P ^ 2 * A + (-205399/12500000 : ℝ) * P ^ 2 * A ^ 2 + (-2092089/12500000 : ℝ) * P ^ 3 + (-745457/12500000 : ℝ) * P ^ 3 * A + (-36641/1562500 : ℝ) * P ^ 3 * A ^ 2 + (638407/100000000 : ℝ) * P ^ 6 := by
  have h := kt_rest_4_pos (P - 1 / 2) (7 / 5 - P) (A - 3 / 10) (21 / 20 - A) (by linarith) (by linarith) (by linarith) (by linarith)
  rw [← sub_nonneg]
  refine le_of_le_of_eq h ?_
  ring

theorem kt_rest_5_pos (p p' a a' : ℝ) (hp : 0 ≤ p) (hp' : 0 ≤ p') (ha : 0 ≤ a) (ha' : 0 ≤ a') : 0 ≤
      (271153259/1913187600 : ℝ) * p' ^ 6 * a' ^ 2 +
      (38466358/119574225 : ℝ) * p' ^ 6 * a * a' +
      (126737069/1913187600 : ℝ) * p' ^ 6 * a ^ 2 +
      (3937779959/1992903750 : ℝ) * p * p' ^ 5 * a' ^ 2 +
      (39568676527/7971615000 : ℝ) * p * p' ^ 5 * a * a' +
      (4432498229/1992903750 : ℝ) * p * p' ^ 5 * a ^ 2 +
      (38552055374/4982259375 : ℝ) * p ^ 2 * p' ^ 4 * a' ^ 2 +
      (819118655819/39858075000 : ℝ) * p ^ 2 * p' ^ 4 * a * a' +
      (210958735451/19929037500 : ℝ) * p ^ 2 * p' ^ 4 * a ^ 2 +
      (162502803613/11957422500 : ℝ) * p ^ 3 * p' ^ 3 * a' ^ 2 +
      (908492888647/23914845000 : ℝ) * p ^ 3 * p' ^ 3 * a * a' +
      (248717978023/11957422500 : ℝ) * p ^ 3 * p' ^ 3 * a ^ 2 +
      (59930533838/4982259375 : ℝ) * p ^ 4 * p' ^ 2 * a' ^ 2 +
      (709021566499/19929037500 : ℝ) * p ^ 4 * p' ^ 2 * a * a' +
      (804663560719/39858075000 : ℝ) * p ^ 4 * p' ^ 2 * a ^ 2 +
      (653594782871/124556484375 : ℝ) * p ^ 5 * p' * a' ^ 2 +
      (4130175202859/249112968750 : ℝ) * p ^ 5 * p' * a * a' +
      (2399483920867/249112968750 : ℝ) * p ^ 5 * p' * a ^ 2 +
      (1712089188572/1868347265625 : ℝ) * p ^ 6 * a' ^ 2 +
      (5800643270269/1868347265625 : ℝ) * p ^ 6 * a * a' +
      (6830465529019/3736694531250 : ℝ) * p ^ 6 * a ^ 2 := by
  positivity

theorem kt_rest_5 (P A : ℝ) (h2 : 1 / 2 ≤ P) (h3 : P ≤ 7 / 5) (h4 : 3 / 10 ≤ A) (h5 : A ≤ 21 / 20) : 17/100 ≤
      (3282763/50000000 : ℝ) + (-57093/1250000 : ℝ) * A + (-253607/5000000 : ℝ) * A ^ 2 + (476183/2000000 : ℝ) * P + (79057/500000 : ℝ) * P ^ 2 + (415437/1000000 : ℝ) * P ^ 2 * A + (-205399/10000000 : ℝ) * P ^ 2 * A ^ 2 + (-439461/2500000 : ℝ) * P ^ 3 + (-213833/4000000 : ℝ) * P ^ 3 * A + (-36641/1000000 : ℝ) * P ^ 3 * A ^ 2 + (638407/100000000 : ℝ) * P ^ 6 := by
  have h := kt_rest_5_pos (P - 1 / 2) (7 / 5 - P) (A - 3 / 10) (21 / 20 - A) (by linarith) (by linarith) (by linarith) (by linarith)
  rw [← sub_nonneg]
  refine le_of_le_of_eq h ?_
  ring

theorem kt_rest_6_pos (p p' a a' : ℝ) (hp : 0 ≤ p) (hp' : 0 ≤ p') (ha : 0 ≤ a) (ha' : 0 ≤ a') : 0 ≤
      (8799346847/47829690000 : ℝ) * p' ^ 6 * a' ^ 2 +
      (9414498287/23914845000 : ℝ) * p' ^ 6 * a * a' +
      (4316562227/47829690000 : ℝ) * p' ^ 6 * a ^ 2 +
      (45020998481/19929037500 : ℝ) * p * p' ^ 5 * a' ^ 2 +
      (54383728721/9964518750 : ℝ) * p * p' ^ 5 * a * a' +
      (47296309811/19929037500 : ℝ) * p * p' ^ 5 * a ^ 2 +
      (846659018443/99645187500 : ℝ) * p ^ 2 * p' ^ 4 * a' ^ 2 +
      (1091361819163/49822593750 : ℝ) * p ^ 2 * p' ^ 4 * a * a' +
      (1087581398683/99645187500 : ℝ) * p ^ 2 * p' ^ 4 * a ^ 2 +
      (5465089465112/373669453125 : ℝ) * p ^ 3 * p' ^ 3 * a' ^ 2 +
      (14904289690384/373669453125 : ℝ) * p ^ 3 * p' ^ 3 * a * a' +
      (15753279541819/747338906250 : ℝ) * p ^ 3 * p' ^ 3 * a ^ 2 +
      (1591779414902/124556484375 : ℝ) * p ^ 4 * p' ^ 2 * a' ^ 2 +
      (4609410152914/124556484375 : ℝ) * p ^ 4 * p' ^ 2 * a * a' +
      (10054910404973/498225937500 : ℝ) * p ^ 4 * p' ^ 2 * a ^ 2 +
      (687060210728/124556484375 : ℝ) * p ^ 5 * p' * a' ^ 2 +
      (2132793157216/124556484375 : ℝ) * p ^ 5 * p' * a * a' +
      (1182871190063/124556484375 : ℝ) * p ^ 5 * p' * a ^ 2 +
      (1778001516932/1868347265625 : ℝ) * p ^ 6 * a' ^ 2 +
      (5949976211164/1868347265625 : ℝ) * p ^ 6 * a * a' +
      (3314819522732/1868347265625 : ℝ) * p ^ 6 * a ^ 2 := by
  positivity

theorem kt_rest_6 (P A : ℝ) (h2 : 1 / 2 ≤ P) (h3 : P ≤ 7 / 5) (h4 : 3 / 10 ≤ A) (h5 : A ≤ 21 / 20) : 17/100 ≤
      (9173029/125000000 : ℝ) + (-3166491/62500000 : ℝ) * A + (-253607/5000000 : ℝ) * A ^ 2 + (631099/2500000 : ℝ) * P + (79057/500000 : ℝ) * P ^ 2 + (415437/1000000 : ℝ) * P ^ 2 * A + (-616197/25000000 : ℝ) * P ^ 2 * A ^ 2 + (-2302521/12500000 : ℝ) * P ^ 3 + (-242781/6250000 : ℝ) * P ^ 3 * A + (-329769/6250000 : ℝ) * P ^ 3 * A ^ 2 + (638407/100000000 : ℝ) * P ^ 6 := by
  have h := kt_rest_6_pos (P - 1 / 2) (7 / 5 - P) (A - 3 / 10) (21 / 20 - A) (by linarith) (by linarith) (by linarith) (by linarith)
  rw [← sub_nonneg]
  refine le_of_le_of_eq h ?_
  ring

theorem kt_rest_7_pos (p p' a a' : ℝ) (hp : 0 ≤ p) (hp' : 0 ≤ p') (ha : 0 ≤ a) (ha' : 0 ≤ a') : 0 ≤
      (10737331219/47829690000 : ℝ) * p' ^ 6 * a' ^ 2 +
      (2796543511/5978711250 : ℝ) * p' ^ 6 * a * a' +
      (5615149969/47829690000 : ℝ) * p' ^ 6 * a ^ 2 +
      (25279935209/9964518750 : ℝ) * p * p' ^ 5 * a' ^ 2 +
      (238589584327/39858075000 : ℝ) * p * p' ^ 5 * a * a' +
      (12724223152/4982259375 : ℝ) * p * p' ^ 5 * a ^ 2 +
      (46158292711/4982259375 : ℝ) * p ^ 2 * p' ^ 4 * a' ^ 2 +
      (934160277751/39858075000 : ℝ) * p ^ 2 * p' ^ 4 * a * a' +
      (226735398319/19929037500 : ℝ) * p ^ 2 * p' ^ 4 * a ^ 2 +
      (23496126142837/1494677812500 : ℝ) * p ^ 3 * p' ^ 3 * a' ^ 2 +
      (126210350983543/2989355625000 : ℝ) * p ^ 3 * p' ^ 3 * a * a' +
      (32364437495197/1494677812500 : ℝ) * p ^ 3 * p' ^ 3 * a ^ 2 +
      (1697397198703/124556484375 : ℝ) * p ^ 4 * p' ^ 2 * a' ^ 2 +
      (19423530666659/498225937500 : ℝ) * p ^ 4 * p' ^ 2 * a * a' +
      (20454324787469/996451875000 : ℝ) * p ^ 4 * p' ^ 2 * a ^ 2 +
      (729079144399/124556484375 : ℝ) * p ^ 5 * p' * a' ^ 2 +
      (4487009879551/249112968750 : ℝ) * p ^ 5 * p' * a * a' +
      (2385555534353/249112968750 : ℝ) * p ^ 5 * p' * a ^ 2 +
      (1877792676712/1868347265625 : ℝ) * p ^ 6 * a' ^ 2 +
      (6259416816749/1868347265625 : ℝ) * p ^ 6 * a * a' +
      (6624714844949/3736694531250 : ℝ) * p ^ 6 * a ^ 2 := by
  positivity

theorem kt_rest_7 (P A : ℝ) (h2 : 1 / 2 ≤ P) (h3 : P ≤ 7 / 5) (h4 : 3 / 10 ≤ A) (h5 : A ≤ 21 / 20) : 17/100 ≤
      (19974877/250000000 : ℝ) + (-3391969/62500000 : ℝ) * A + (-253607/5000000 : ℝ) * A ^ 2 + (2667877/10000000 : ℝ) * P + (79057/500000 : ℝ) * P ^ 2 + (415437/1000000 : ℝ) * P ^ 2 * A + (-1437793/50000000 : ℝ) * P ^ 2 * A ^ 2 + (-2407737/12500000 : ℝ) * P ^ 3 + (-1579669/100000000 : ℝ) * P ^ 3 * A + (-1795409/25000000 : ℝ) * P ^ 3 * A ^ 2 + (638407/100000000 : ℝ) * P ^ 6 := by
  have h := kt_rest_7_pos (P - 1 / 2) (7 / 5 - P) (A - 3 / 10) (21 / 20 - A) (by linarith) (by linarith) (by linarith) (by linarith)
  rw [← sub_nonneg]
  refine le_of_le_of_eq h ?_
  ring

theorem kq_rest_2_pos (p p' a a' : ℝ) (hp : 0 ≤ p) (hp' : 0 ≤ p') (ha : 0 ≤ a) (ha' : 0 ≤ a') : 0 ≤
      (4946179/59787112500 : ℝ) * p' ^ 6 * a' ^ 2 +
      (6938810087/239148450000 : ℝ) * p' ^ 6 * a * a' +
      (5914697567/478296900000 : ℝ) * p' ^ 6 * a ^ 2 +
      (12691062481/99645187500 : ℝ) * p * p' ^ 5 * a' ^ 2 +
      (30133208821/49822593750 : ℝ) * p * p' ^ 5 * a * a' +
      (113036420419/398580750000 : ℝ) * p * p' ^ 5 * a ^ 2 +
      (382468461629/498225937500 : ℝ) * p ^ 2 * p' ^ 4 * a' ^ 2 +
      (391375431007/124556484375 : ℝ) * p ^ 2 * p' ^ 4 * a * a' +
      (3187548691571/1992903750000 : ℝ) * p ^ 2 * p' ^ 4 * a ^ 2 +
      (13417170752701/7473389062500 : ℝ) * p ^ 3 * p' ^ 3 * a' ^ 2 +
      (52869513859157/7473389062500 : ℝ) * p ^ 3 * p' ^ 3 * a * a' +
      (111613661245849/29893556250000 : ℝ) * p ^ 3 * p' ^ 3 * a ^ 2 +
      (2546160486713/1245564843750 : ℝ) * p ^ 4 * p' ^ 2 * a' ^ 2 +
      (9916519474141/1245564843750 : ℝ) * p ^ 4 * p' ^ 2 * a * a' +
      (21162726836537/4982259375000 : ℝ) * p ^ 4 * p' ^ 2 * a ^ 2 +
      (3521194531793/3113912109375 : ℝ) * p ^ 5 * p' * a' ^ 2 +
      (13710260256946/3113912109375 : ℝ) * p ^ 5 * p' * a * a' +
      (29182247672387/12455648437500 : ℝ) * p ^ 5 * p' * a ^ 2 +
      (11199965722886/46708681640625 : ℝ) * p ^ 6 * a' ^ 2 +
      (44129699466592/46708681640625 : ℝ) * p ^ 6 * a * a' +
      (46632941895937/93417363281250 : ℝ) * p ^ 6 * a ^ 2 := by
  positivity

theorem kq_rest_2 (P A : ℝ) (h2 : 1 / 2 ≤ P) (h3 : P ≤ 7 / 5) (h4 : 3 / 10 ≤ A) (h5 : A ≤ 21 / 20) : 7/500 ≤
      (47421/12500000 : ℝ) + (37897/2500000 : ℝ) * A ^ 2 + (16053/1562500 : ℝ) * P + (-408811/10000000 : ℝ) * P * A + (-251391/5000000 : ℝ) * P * A ^ 2 + (172389/50000000 : ℝ) * P ^ 2 + (440293/3125000 : ℝ) * P ^ 2 * A + (126803/5000000 : ℝ) * P ^ 2 * A ^ 2 + (80943/5000000 : ℝ) * P ^ 3 * A + (-10368449/250000000 : ℝ) * P ^ 3 * A ^ 2 + (-39239/62500000 : ℝ) * P ^ 6 + (-203961/125000000 : ℝ) * P ^ 6 * A + (16519/12500000 : ℝ) * P ^ 6 * A ^ 2 := by
  have h := kq_rest_2_pos (P - 1 / 2) (7 / 5 - P) (A - 3 / 10) (21 / 20 - A) (by linarith) (by linarith) (by linarith) (by linarith)
  rw [← sub_nonneg]
  refine le_of_le_of_eq h ?_
  ring

theorem kq_rest_3_pos (p p' a a' : ℝ) (hp : 0 ≤ p) (hp' : 0 ≤ p') (ha : 0 ≤ a) (ha' : 0 ≤ a') : 0 ≤
      (4257875429/956593800000 : ℝ) * p' ^ 6 * a' ^ 2 +
      (54979793231/1913187600000 : ℝ) * p' ^ 6 * a * a' +
      (10982671649/956593800000 : ℝ) * p' ^ 6 * a ^ 2 +
      (30813121837/199290375000 : ℝ) * p * p' ^ 5 * a' ^ 2 +
      (460160898011/797161500000 : ℝ) * p * p' ^ 5 * a * a' +
      (431172956051/1594323000000 : ℝ) * p * p' ^ 5 * a ^ 2 +
      (410850368509/498225937500 : ℝ) * p ^ 2 * p' ^ 4 * a' ^ 2 +
      (11777720690629/3985807500000 : ℝ) * p ^ 2 * p' ^ 4 * a * a' +
      (12141073756639/7971615000000 : ℝ) * p ^ 2 * p' ^ 4 * a ^ 2 +
      (54896050019759/29893556250000 : ℝ) * p ^ 3 * p' ^ 3 * a' ^ 2 +
      (197089247986813/29893556250000 : ℝ) * p ^ 3 * p' ^ 3 * a * a' +
      (423492366447191/119574225000000 : ℝ) * p ^ 3 * p' ^ 3 * a ^ 2 +
      (10118697607687/4982259375000 : ℝ) * p ^ 4 * p' ^ 2 * a' ^ 2 +
      (18360991881517/2491129687500 : ℝ) * p ^ 4 * p' ^ 2 * a * a' +
      (80097205315813/19929037500000 : ℝ) * p ^ 4 * p' ^ 2 * a ^ 2 +
      (13673917689043/12455648437500 : ℝ) * p ^ 5 * p' * a' ^ 2 +
      (50483588074631/12455648437500 : ℝ) * p ^ 5 * p' * a * a' +
      (110713391829727/49822593750000 : ℝ) * p ^ 5 * p' * a ^ 2 +
      (21174153560033/93417363281250 : ℝ) * p ^ 6 * a' ^ 2 +
      (40390076065568/46708681640625 : ℝ) * p ^ 6 * a * a' +
      (179605212312287/373669453125000 : ℝ) * p ^ 6 * a ^ 2 := by
  positivity

theorem kq_rest_3 (P A : ℝ) (h2 : 1 / 2 ≤ P) (h3 : P ≤ 7 / 5) (h4 : 3 / 10 ≤ A) (h5 : A ≤ 21 / 20) : 7/500 ≤
      (47421/12500000 : ℝ) + (142373/10000000 : ℝ) * A ^ 2 + (48159/3125000 : ℝ) * P + (-408811/10000000 : ℝ) * P * A + (-251391/5000000 : ℝ) * P * A ^ 2 + (172389/50000000 : ℝ) * P ^ 2 + (760751/6250000 : ℝ) * P ^ 2 * A + (380409/10000000 : ℝ) * P ^ 2 * A ^ 2 + (80943/5000000 : ℝ) * P ^ 3 * A + (-43600791/1000000000 : ℝ) * P ^ 3 * A ^ 2 + (-117717/125000000 : ℝ) * P ^ 6 + (-1539483/1000000000 : ℝ) * P ^ 6 * A + (23347/10000000 : ℝ) * P ^ 6 * A ^ 2 := by
  have h := kq_rest_3_pos (P - 1 / 2) (7 / 5 - P) (A - 3 / 10) (21 / 20 - A) (by linarith) (by linarith) (by linarith) (by linarith)
  rw [← sub_nonneg]
  refine le_of_le_of_eq h ?_
  ring

theorem kq_rest_4_pos (p p' a a' : ℝ) (hp : 0 ≤ p) (hp' : 0 ≤ p') (ha : 0 ≤ a) (ha' : 0 ≤ a') : 0 ≤
      (5237452/553584375 : ℝ) * p' ^ 6 * a' ^ 2 +
      (2469481591/79716150000 : ℝ) * p' ^ 6 * a * a' +
      (1841725481/159432300000 : ℝ) * p' ^ 6 * a ^ 2 +
      (115885777/615093750 : ℝ) * p * p' ^ 5 * a' ^ 2 +
      (19143375781/33215062500 : ℝ) * p * p' ^ 5 * a * a' +
      (2246211562/8303765625 : ℝ) * p * p' ^ 5 * a ^ 2 +
      (8369453279/9226406250 : ℝ) * p ^ 2 * p' ^ 4 * a' ^ 2 +
      (477127419779/166075312500 : ℝ) * p ^ 2 * p' ^ 4 * a * a' +
      (249512471207/166075312500 : ℝ) * p ^ 2 * p' ^ 4 * a ^ 2 +
      (266746638851/138396093750 : ℝ) * p ^ 3 * p' ^ 3 * a' ^ 2 +
      (3933938358994/622782421875 : ℝ) * p ^ 3 * p' ^ 3 * a * a' +
      (17213812768541/4982259375000 : ℝ) * p ^ 3 * p' ^ 3 * a ^ 2 +
      (15923411221/7688671875 : ℝ) * p ^ 4 * p' ^ 2 * a' ^ 2 +
      (1451847534619/207594140625 : ℝ) * p ^ 4 * p' ^ 2 * a * a' +
      (3227440715533/830376562500 : ℝ) * p ^ 4 * p' ^ 2 * a ^ 2 +
      (126330138886/115330078125 : ℝ) * p ^ 5 * p' * a' ^ 2 +
      (3965669493503/1037970703125 : ℝ) * p ^ 5 * p' * a * a' +
      (2219064301829/1037970703125 : ℝ) * p ^ 5 * p' * a ^ 2 +
      (382837028372/1729951171875 : ℝ) * p ^ 6 * a' ^ 2 +
      (12646538440106/15569560546875 : ℝ) * p ^ 6 * a * a' +
      (7219118432108/15569560546875 : ℝ) * p ^ 6 * a ^ 2 := by
  positivity

theorem kq_rest_4 (P A : ℝ) (h2 : 1 / 2 ≤ P) (h3 : P ≤ 7 / 5) (h4 : 3 / 10 ≤ A) (h5 : A ≤ 21 / 20) : 7/500 ≤
      (47421/12500000 : ℝ) + (2023/156250 : ℝ) * A ^ 2 + (16053/781250 : ℝ) * P + (-408811/10000000 : ℝ) * P * A + (-251391/5000000 : ℝ) * P * A ^ 2 + (172389/50000000 : ℝ) * P ^ 2 + (2641331/25000000 : ℝ) * P ^ 2 * A + (126803/2500000 : ℝ) * P ^ 2 * A ^ 2 + (80943/5000000 : ℝ) * P ^ 3 * A + (-5822323/125000000 : ℝ) * P ^ 3 * A ^ 2 + (-39239/31250000 : ℝ) * P ^ 6 + (-105239/125000000 : ℝ) * P ^ 6 * A + (30201/12500000 : ℝ) * P ^ 6 * A ^ 2 := by
  have h := kq_rest_4_pos (P - 1 / 2) (7 / 5 - P) (A - 3 / 10) (21 / 20 - A) (by linarith) (by linarith) (by linarith) (by linarith)
  rw [← sub_nonneg]
  refine le_of_le_of_eq h ?_
  ring

theorem kq_rest_5_pos (p p' a a' : ℝ) (hp : 0 ≤ p) (hp' : 0 ≤ p') (ha : 0 ≤ a) (ha' : 0 ≤ a') : 0 ≤
      (2891292749/191318760000 : ℝ) * p' ^ 6 * a' ^ 2 +
      (13674755111/382637520000 : ℝ) * p' ^ 6 * a * a' +
      (2406487769/191318760000 : ℝ) * p' ^ 6 * a ^ 2 +
      (9116746939/39858075000 : ℝ) * p * p' ^ 5 * a' ^ 2 +
      (95994340667/159432300000 : ℝ) * p * p' ^ 5 * a * a' +
      (90488934647/318864600000 : ℝ) * p * p' ^ 5 * a ^ 2 +
      (5057687873/4982259375 : ℝ) * p ^ 2 * p' ^ 4 * a' ^ 2 +
      (461761037777/159432300000 : ℝ) * p ^ 2 * p' ^ 4 * a * a' +
      (490270774007/318864600000 : ℝ) * p ^ 2 * p' ^ 4 * a ^ 2 +
      (2473294197079/1195742250000 : ℝ) * p ^ 3 * p' ^ 3 * a' ^ 2 +
      (7467897406853/1195742250000 : ℝ) * p ^ 3 * p' ^ 3 * a * a' +
      (16614882599071/4782969000000 : ℝ) * p ^ 3 * p' ^ 3 * a ^ 2 +
      (2156732107483/996451875000 : ℝ) * p ^ 4 * p' ^ 2 * a' ^ 2 +
      (3403314910003/498225937500 : ℝ) * p ^ 4 * p' ^ 2 * a * a' +
      (15347004583417/3985807500000 : ℝ) * p ^ 4 * p' ^ 2 * a ^ 2 +
      (13993990059107/12455648437500 : ℝ) * p ^ 5 * p' * a' ^ 2 +
      (46154378569999/12455648437500 : ℝ) * p ^ 5 * p' * a * a' +
      (104134074663743/49822593750000 : ℝ) * p ^ 5 * p' * a ^ 2 +
      (20897069361937/93417363281250 : ℝ) * p ^ 6 * a' ^ 2 +
      (36778317230842/46708681640625 : ℝ) * p ^ 6 * a * a' +
      (167492657758663/373669453125000 : ℝ) * p ^ 6 * a ^ 2 := by
  positivity

theorem kq_rest_5 (P A : ℝ) (h2 : 1 / 2 ≤ P) (h3 : P ≤ 7 / 5) (h4 : 3 / 10 ≤ A) (h5 : A ≤ 21 / 20) : 7/500 ≤
      (47421/12500000 : ℝ) + (22577/2000000 : ℝ) * A ^ 2 + (16053/625000 : ℝ) * P + (-408811/10000000 : ℝ) * P * A + (-251391/5000000 : ℝ) * P * A ^ 2 + (172389/50000000 : ℝ) * P ^ 2 + (92693/1000000 : ℝ) * P ^ 2 * A + (126803/2000000 : ℝ) * P ^ 2 * A ^ 2 + (80943/5000000 : ℝ) * P ^ 3 * A + (-2016287/40000000 : ℝ) * P ^ 3 * A ^ 2 + (-39239/25000000 : ℝ) * P ^ 6 + (18441/40000000 : ℝ) * P ^ 6 * A + (78283/50000000 : ℝ) * P ^ 6 * A ^ 2 := by
  have h := kq_rest_5_pos (P - 1 / 2) (7 / 5 - P) (A - 3 / 10) (21 / 20 - A) (by linarith) (by linarith) (by linarith) (by linarith)
  rw [← sub_nonneg]
  refine le_of_le_of_eq h ?_
  ring

theorem kq_rest_6_pos (p p' a a' : ℝ) (hp : 0 ≤ p) (hp' : 0 ≤ p') (ha : 0 ≤ a) (ha' : 0 ≤ a') : 0 ≤
      (2559539437/119574225000 : ℝ) * p' ^ 6 * a' ^ 2 +
      (2571826417/59787112500 : ℝ) * p' ^ 6 * a * a' +
      (6964464763/478296900000 : ℝ) * p' ^ 6 * a ^ 2 +
      (27461675339/99645187500 : ℝ) * p * p' ^ 5 * a' ^ 2 +
      (65219118973/99645187500 : ℝ) * p * p' ^ 5 * a * a' +
      (123672279011/398580750000 : ℝ) * p * p' ^ 5 * a ^ 2 +
      (572305299211/498225937500 : ℝ) * p ^ 2 * p' ^ 4 * a' ^ 2 +
      (1507078037477/498225937500 : ℝ) * p ^ 2 * p' ^ 4 * a * a' +
      (3245396488339/1992903750000 : ℝ) * p ^ 2 * p' ^ 4 * a ^ 2 +
      (16885323206309/7473389062500 : ℝ) * p ^ 3 * p' ^ 3 * a' ^ 2 +
      (47673607451413/7473389062500 : ℝ) * p ^ 3 * p' ^ 3 * a * a' +
      (107553510510641/29893556250000 : ℝ) * p ^ 3 * p' ^ 3 * a ^ 2 +
      (2878641951577/1245564843750 : ℝ) * p ^ 4 * p' ^ 2 * a' ^ 2 +
      (8572102142639/1245564843750 : ℝ) * p ^ 4 * p' ^ 2 * a * a' +
      (19481635637173/4982259375000 : ℝ) * p ^ 4 * p' ^ 2 * a ^ 2 +
      (147249228673/124556484375 : ℝ) * p ^ 5 * p' * a' ^ 2 +
      (2309131100926/622782421875 : ℝ) * p ^ 5 * p' * a * a' +
      (5178517817879/2491129687500 : ℝ) * p ^ 5 * p' * a ^ 2 +
      (2184576304958/9341736328125 : ℝ) * p ^ 6 * a' ^ 2 +
      (7381236359428/9341736328125 : ℝ) * p ^ 6 * a * a' +
      (324613316953/747338906250 : ℝ) * p ^ 6 * a ^ 2 := by
  positivity

theorem kq_rest_6 (P A : ℝ) (h2 : 1 / 2 ≤ P) (h3 : P ≤ 7 / 5) (h4 : 3 / 10 ≤ A) (h5 : A ≤ 21 / 20) : 7/500 ≤
      (47421/12500000 : ℝ) + (23153/2500000 : ℝ) * A ^ 2 + (48159/1562500 : ℝ) * P + (-408811/10000000 : ℝ) * P * A + (-251391/5000000 : ℝ) * P * A ^ 2 + (172389/50000000 : ℝ) * P ^ 2 + (1035493/12500000 : ℝ) * P ^ 2 * A + (380409/5000000 : ℝ) * P ^ 2 * A ^ 2 + (80943/5000000 : ℝ) * P ^ 3 * A + (-13771641/250000000 : ℝ) * P ^ 3 * A ^ 2 + (-117717/62500000 : ℝ) * P ^ 6 + (148083/62500000 : ℝ) * P ^ 6 * A + (-2707/12500000 : ℝ) * P ^ 6 * A ^ 2 := by
  have h := kq_rest_6_pos (P - 1 / 2) (7 / 5 - P) (A - 3 / 10) (21 / 20 - A) (by linarith) (by linarith) (by linarith) (by linarith)
  rw [← sub_nonneg]
  refine le_of_le_of_eq h ?_
  ring

theorem kq_rest_7_pos (p p' a a' : ℝ) (hp : 0 ≤ p) (hp' : 0 ≤ p') (ha : 0 ≤ a) (ha' : 0 ≤ a') : 0 ≤
      (9036624103/318864600000 : ℝ) * p' ^ 6 * a' ^ 2 +
      (11226840839/212576400000 : ℝ) * p' ^ 6 * a * a' +
      (5579941643/318864600000 : ℝ) * p' ^ 6 * a ^ 2 +
      (21855279899/66430125000 : ℝ) * p * p' ^ 5 * a' ^ 2 +
      (64976084899/88573500000 : ℝ) * p * p' ^ 5 * a * a' +
      (186001982777/531441000000 : ℝ) * p * p' ^ 5 * a ^ 2 +
      (217186670933/166075312500 : ℝ) * p ^ 2 * p' ^ 4 * a' ^ 2 +
      (481068634847/147622500000 : ℝ) * p ^ 2 * p' ^ 4 * a * a' +
      (4717016142493/2657205000000 : ℝ) * p ^ 2 * p' ^ 4 * a ^ 2 +
      (24914695895533/9964518750000 : ℝ) * p ^ 3 * p' ^ 3 * a' ^ 2 +
      (22313336126077/3321506250000 : ℝ) * p ^ 3 * p' ^ 3 * a * a' +
      (152552479214117/39858075000000 : ℝ) * p ^ 3 * p' ^ 3 * a ^ 2 +
      (4170364092629/1660753125000 : ℝ) * p ^ 4 * p' ^ 2 * a' ^ 2 +
      (1978339957913/276792187500 : ℝ) * p ^ 4 * p' ^ 2 * a * a' +
      (27011045355871/6643012500000 : ℝ) * p ^ 4 * p' ^ 2 * a ^ 2 +
      (5278817808089/4151882812500 : ℝ) * p ^ 5 * p' * a' ^ 2 +
      (196184215093/51257812500 : ℝ) * p ^ 5 * p' * a * a' +
      (34941310523101/16607531250000 : ℝ) * p ^ 5 * p' * a ^ 2 +
      (7839760198339/31139121093750 : ℝ) * p ^ 6 * a' ^ 2 +
      (4258134335468/5189853515625 : ℝ) * p ^ 6 * a * a' +
      (52566948174701/124556484375000 : ℝ) * p ^ 6 * a ^ 2 := by
  positivity

theorem kq_rest_7 (P A : ℝ) (h2 : 1 / 2 ≤ P) (h3 : P ≤ 7 / 5) (h4 : 3 / 10 ≤ A) (h5 : A ≤ 21 / 20) : 7/500 ≤
      (47421/12500000 : ℝ) + (68653/10000000 : ℝ) * A ^ 2 + (112371/3125000 : ℝ) * P + (-408811/10000000 : ℝ) * P * A + (-251391/5000000 : ℝ) * P * A ^ 2 + (172389/50000000 : ℝ) * P ^ 2 + (951157/12500000 : ℝ) * P ^ 2 * A + (887621/10000000 : ℝ) * P ^ 2 * A ^ 2 + (80943/5000000 : ℝ) * P ^ 3 * A + (-60616751/1000000000 : ℝ) * P ^ 3 * A ^ 2 + (-274673/125000000 : ℝ) * P ^ 6 + (4882997/1000000000 : ℝ) * P ^ 6 * A + (-146529/50000000 : ℝ) * P ^ 6 * A ^ 2 := by
  have h := kq_rest_7_pos (P - 1 / 2) (7 / 5 - P) (A - 3 / 10) (21 / 20 - A) (by linarith) (by linarith) (by linarith) (by linarith)
  rw [← sub_nonneg]
  refine le_of_le_of_eq h ?_
  ring

theorem kt_slope_2_pos0 (p p' a a' : ℝ) (hp : 0 ≤ p) (hp' : 0 ≤ p') (ha : 0 ≤ a) (ha' : 0 ≤ a') : 0 ≤
      (6832807769/21523360500 : ℝ) * p' ^ 6 * a' ^ 2 +
      (18378922513/21523360500 : ℝ) * p' ^ 6 * a * a' +
      (43493709851/86093442000 : ℝ) * p' ^ 6 * a ^ 2 +
      (17135255903/8968066875 : ℝ) * p * p' ^ 5 * a' ^ 2 +
      (50376656431/8968066875 : ℝ) * p * p' ^ 5 * a * a' +
      (126185750237/35872267500 : ℝ) * p * p' ^ 5 * a ^ 2 +
      (8500002901/1793613375 : ℝ) * p ^ 2 * p' ^ 4 * a' ^ 2 +
      (27204980477/1793613375 : ℝ) * p ^ 2 * p' ^ 4 * a * a' +
      (71355813679/7174453500 : ℝ) * p ^ 2 * p' ^ 4 * a ^ 2 +
      (829038279256/134521003125 : ℝ) * p ^ 3 * p' ^ 3 * a' ^ 2 +
      (2891094117512/134521003125 : ℝ) * p ^ 3 * p' ^ 3 * a * a' +
      (1970261474506/134521003125 : ℝ) * p ^ 3 * p' ^ 3 * a ^ 2 +
      (986683133396/224201671875 : ℝ) * p ^ 4 * p' ^ 2 * a' ^ 2 +
      (3770942823292/224201671875 : ℝ) * p ^ 4 * p' ^ 2 * a * a' +
      (2651344916771/224201671875 : ℝ) * p ^ 4 * p' ^ 2 * a ^ 2 +
      (9088506185888/5605041796875 : ℝ) * p ^ 5 * p' * a' ^ 2 +
      (38454149828776/5605041796875 : ℝ) * p ^ 5 * p' * a * a' +
      (27527684995388/5605041796875 : ℝ) * p ^ 5 * p' * a ^ 2 +
      (20009873291216/84075626953125 : ℝ) * p ^ 6 * a' ^ 2 +
      (94634300656432/84075626953125 : ℝ) * p ^ 6 * a * a' +
      (66467854332716/84075626953125 : ℝ) * p ^ 6 * a ^ 2 := by
  positivity

theorem kt_slope_2_pos1 (p p' a a' : ℝ) (hp : 0 ≤ p) (hp' : 0 ≤ p') (ha : 0 ≤ a) (ha' : 0 ≤ a') : 0 ≤
      (32948832359/26904200625 : ℝ) * p' ^ 6 * a' ^ 2 +
      (172708146701/53808401250 : ℝ) * p' ^ 6 * a * a' +
      (367696694257/215233605000 : ℝ) * p' ^ 6 * a ^ 2 +
      (330069444212/44840334375 : ℝ) * p * p' ^ 5 * a' ^ 2 +
      (908030202934/44840334375 : ℝ) * p * p' ^ 5 * a * a' +
      (1007039678719/89680668750 : ℝ) * p * p' ^ 5 * a ^ 2 +
      (822133648724/44840334375 : ℝ) * p ^ 2 * p' ^ 4 * a' ^ 2 +
      (2372279896018/44840334375 : ℝ) * p ^ 2 * p' ^ 4 * a * a' +
      (2727956616013/89680668750 : ℝ) * p ^ 2 * p' ^ 4 * a ^ 2 +
      (16252165146304/672605015625 : ℝ) * p ^ 3 * p' ^ 3 * a' ^ 2 +
      (49228378052528/672605015625 : ℝ) * p ^ 3 * p' ^ 3 * a * a' +
      (29249178231124/672605015625 : ℝ) * p ^ 3 * p' ^ 3 * a ^ 2 +
      (19885952257064/1121008359375 : ℝ) * p ^ 4 * p' ^ 2 * a' ^ 2 +
      (63375092348848/1121008359375 : ℝ) * p ^ 4 * p' ^ 2 * a * a' +
      (38817481135184/1121008359375 : ℝ) * p ^ 4 * p' ^ 2 * a ^ 2 +
      (192949274555792/28025208984375 : ℝ) * p ^ 5 * p' * a' ^ 2 +
      (648726443983744/28025208984375 : ℝ) * p ^ 5 * p' * a * a' +
      (408700342705652/28025208984375 : ℝ) * p ^ 5 * p' * a ^ 2 +
      (468370288915544/420378134765625 : ℝ) * p ^ 6 * a' ^ 2 +
      (1659503502561208/420378134765625 : ℝ) * p ^ 6 * a * a' +
      (1070919486745814/420378134765625 : ℝ) * p ^ 6 * a ^ 2 := by
  positivity

theorem kt_slope_2_pos2 (p p' a a' : ℝ) (hp : 0 ≤ p) (hp' : 0 ≤ p') (ha : 0 ≤ a) (ha' : 0 ≤ a') : 0 ≤
      (2025544766491/4304672100000 : ℝ) * p' ^ 6 * a' ^ 2 +
      (3805536120619/8609344200000 : ℝ) * p' ^ 6 * a * a' +
      (93460653137/8609344200000 : ℝ) * p' ^ 6 * a ^ 2 +
      (5101111347037/1793613375000 : ℝ) * p * p' ^ 5 * a' ^ 2 +
      (11398835274733/3587226750000 : ℝ) * p * p' ^ 5 * a * a' +
      (2048695469159/3587226750000 : ℝ) * p * p' ^ 5 * a ^ 2 +
      (12804251854459/1793613375000 : ℝ) * p ^ 2 * p' ^ 4 * a' ^ 2 +
      (33054711483931/3587226750000 : ℝ) * p ^ 2 * p' ^ 4 * a * a' +
      (9608249069513/3587226750000 : ℝ) * p ^ 2 * p' ^ 4 * a ^ 2 +
      (32001466200013/3363025078125 : ℝ) * p ^ 3 * p' ^ 3 * a' ^ 2 +
      (93561601912717/6726050156250 : ℝ) * p ^ 3 * p' ^ 3 * a * a' +
      (35186611261691/6726050156250 : ℝ) * p ^ 3 * p' ^ 3 * a ^ 2 +
      (79726082594191/11210083593750 : ℝ) * p ^ 4 * p' ^ 2 * a' ^ 2 +
      (260772440540419/22420167187500 : ℝ) * p ^ 4 * p' ^ 2 * a * a' +
      (116949999313787/22420167187500 : ℝ) * p ^ 4 * p' ^ 2 * a ^ 2 +
      (398858322128174/140126044921875 : ℝ) * p ^ 5 * p' * a' ^ 2 +
      (726359363214433/140126044921875 : ℝ) * p ^ 5 * p' * a * a' +
      (377494438115384/140126044921875 : ℝ) * p ^ 5 * p' * a ^ 2 +
      (1026054467565968/2101890673828125 : ℝ) * p ^ 6 * a' ^ 2 +
      (2086825517057281/2101890673828125 : ℝ) * p ^ 6 * a * a' +
      (2524376303874751/4203781347656250 : ℝ) * p ^ 6 * a ^ 2 := by
  positivity

theorem kt_slope_2 (J P A : ℝ) (h0 : 0 ≤ J) (h1 : J ≤ 3 / 2) (h2 : 1 / 2 ≤ P) (h3 : P ≤ 7 / 5) (h4 : 3 / 10 ≤ A) (h5 : A ≤ 21 / 20) : 1/100 ≤
      (140301/625000 : ℝ) + (-109689/5000000 : ℝ) * A + (-4651/125000 : ℝ) * A ^ 2 + (-303413/2500000 : ℝ) * P + (481497/1000000 : ℝ) * P * A + (40913/6250000 : ℝ) * P ^ 2 + (-21053/625000 : ℝ) * P ^ 3 + (328787/250000000 : ℝ) * P ^ 6 + (-2093/200000 : ℝ) * P ^ 6 * A ^ 2 + (59761/312500 : ℝ) * J + (147581/500000 : ℝ) * J * A + (-854559/5000000 : ℝ) * J * A ^ 2 + (215293/125000000 : ℝ) * J * P ^ 6 + (40517/3125000 : ℝ) * J * P ^ 6 * A ^ 2 + (105099/15625000 : ℝ) * J ^ 2 + (-31593/62500 : ℝ) * J ^ 2 * A + (60537/400000 : ℝ) * J ^ 2 * A ^ 2 + (38361/6250000 : ℝ) * J ^ 2 * P ^ 3 + (-1695687/2500000000 : ℝ) * J ^ 2 * P ^ 6 * A := by
  have e0 := kt_slope_2_pos0 (P - 1 / 2) (7 / 5 - P) (A - 3 / 10) (21 / 20 - A) (by linarith) (by linarith) (by linarith) (by linarith)
  have e1 := kt_slope_2_pos1 (P - 1 / 2) (7 / 5 - P) (A - 3 / 10) (21 / 20 - A) (by linarith) (by linarith) (by linarith) (by linarith)
  have e2 := kt_slope_2_pos2 (P - 1 / 2) (7 / 5 - P) (A - 3 / 10) (21 / 20 - A) (by linarith) (by linarith) (by linarith) (by linarith)
  have hJ : 0 ≤ 3 / 2 - J := by linarith
  have h := add_nonneg (add_nonneg (mul_nonneg (pow_nonneg hJ 2) e0) (mul_nonneg (mul_nonneg h0 hJ) e1)) (mul_nonneg (pow_nonneg h0 2) e2)
  rw [← sub_nonneg]
  refine le_of_le_of_eq h ?_
  ring

theorem kt_slope_3_pos0 (p p' a a' : ℝ) (hp : 0 ≤ p) (hp' : 0 ≤ p') (ha : 0 ≤ a) (ha' : 0 ≤ a') : 0 ≤
      (12998044753/43046721000 : ℝ) * p' ^ 6 * a' ^ 2 +
      (4295050132/5380840125 : ℝ) * p' ^ 6 * a * a' +
      (38694475481/86093442000 : ℝ) * p' ^ 6 * a ^ 2 +
      (31045819351/17936133750 : ℝ) * p * p' ^ 5 * a' ^ 2 +
      (45824085976/8968066875 : ℝ) * p * p' ^ 5 * a * a' +
      (111076133327/35872267500 : ℝ) * p * p' ^ 5 * a ^ 2 +
      (2908528969/717445350 : ℝ) * p ^ 2 * p' ^ 4 * a' ^ 2 +
      (4816736104/358722675 : ℝ) * p ^ 2 * p' ^ 4 * a * a' +
      (12422195153/1434890700 : ℝ) * p ^ 2 * p' ^ 4 * a ^ 2 +
      (658706488156/134521003125 : ℝ) * p ^ 3 * p' ^ 3 * a' ^ 2 +
      (2484036635312/134521003125 : ℝ) * p ^ 3 * p' ^ 3 * a * a' +
      (1691676783406/134521003125 : ℝ) * p ^ 3 * p' ^ 3 * a ^ 2 +
      (706950179666/224201671875 : ℝ) * p ^ 4 * p' ^ 2 * a' ^ 2 +
      (3128484540832/224201671875 : ℝ) * p ^ 4 * p' ^ 2 * a * a' +
      (2236295838041/224201671875 : ℝ) * p ^ 4 * p' ^ 2 * a ^ 2 +
      (5576136870248/5605041796875 : ℝ) * p ^ 5 * p' * a' ^ 2 +
      (30599487447496/5605041796875 : ℝ) * p ^ 5 * p' * a * a' +
      (22662154429748/5605041796875 : ℝ) * p ^ 5 * p' * a ^ 2 +
      (9658529311736/84075626953125 : ℝ) * p ^ 6 * a' ^ 2 +
      (71856803322472/84075626953125 : ℝ) * p ^ 6 * a * a' +
      (52733607228236/84075626953125 : ℝ) * p ^ 6 * a ^ 2 := by
  positivity

theorem kt_slope_3_pos1 (p p' a a' : ℝ) (hp : 0 ≤ p) (hp' : 0 ≤ p') (ha : 0 ≤ a) (ha' : 0 ≤ a') : 0 ≤
      (73829889343/53808401250 : ℝ) * p' ^ 6 * a' ^ 2 +
      (185916839951/53808401250 : ℝ) * p' ^ 6 * a * a' +
      (382105128757/215233605000 : ℝ) * p' ^ 6 * a ^ 2 +
      (361932080162/44840334375 : ℝ) * p * p' ^ 5 * a' ^ 2 +
      (958476694834/44840334375 : ℝ) * p * p' ^ 5 * a * a' +
      (1027463790619/89680668750 : ℝ) * p * p' ^ 5 * a ^ 2 +
      (880527252374/44840334375 : ℝ) * p ^ 2 * p' ^ 4 * a' ^ 2 +
      (2455870153318/44840334375 : ℝ) * p ^ 2 * p' ^ 4 * a * a' +
      (2736490923313/89680668750 : ℝ) * p ^ 2 * p' ^ 4 * a ^ 2 +
      (16937693179504/672605015625 : ℝ) * p ^ 3 * p' ^ 3 * a' ^ 2 +
      (49935495118928/672605015625 : ℝ) * p ^ 3 * p' ^ 3 * a * a' +
      (28852177264324/672605015625 : ℝ) * p ^ 3 * p' ^ 3 * a ^ 2 +
      (20047707024464/1121008359375 : ℝ) * p ^ 4 * p' ^ 2 * a' ^ 2 +
      (62868678133648/1121008359375 : ℝ) * p ^ 4 * p' ^ 2 * a * a' +
      (37626074652584/1121008359375 : ℝ) * p ^ 4 * p' ^ 2 * a ^ 2 +
      (186661176930992/28025208984375 : ℝ) * p ^ 5 * p' * a' ^ 2 +
      (627851011234144/28025208984375 : ℝ) * p ^ 5 * p' * a * a' +
      (388880632580852/28025208984375 : ℝ) * p ^ 5 * p' * a ^ 2 +
      (431659105341944/420378134765625 : ℝ) * p ^ 6 * a' ^ 2 +
      (1565333041664008/420378134765625 : ℝ) * p ^ 6 * a * a' +
      (1000379271922214/420378134765625 : ℝ) * p ^ 6 * a ^ 2 := by
  positivity

theorem kt_slope_3_pos2 (p p' a a' : ℝ) (hp : 0 ≤ p) (hp' : 0 ≤ p') (ha : 0 ≤ a) (ha' : 0 ≤ a') : 0 ≤
      (11413682470219/17218688400000 : ℝ) * p' ^ 6 * a' ^ 2 +
      (27617171590771/34437376800000 : ℝ) * p' ^ 6 * a * a' +
      (5610067712333/34437376800000 : ℝ) * p' ^ 6 * a ^ 2 +
      (28106437873933/7174453500000 : ℝ) * p * p' ^ 5 * a' ^ 2 +
      (74270694120997/14348907000000 : ℝ) * p * p' ^ 5 * a * a' +
      (20126661927131/14348907000000 : ℝ) * p * p' ^ 5 * a ^ 2 +
      (68966507567131/7174453500000 : ℝ) * p ^ 2 * p' ^ 4 * a' ^ 2 +
      (197849249685379/14348907000000 : ℝ) * p ^ 2 * p' ^ 4 * a * a' +
      (65215679729117/14348907000000 : ℝ) * p ^ 2 * p' ^ 4 * a ^ 2 +
      (168287473751917/13452100312500 : ℝ) * p ^ 3 * p' ^ 3 * a' ^ 2 +
      (521701469525653/26904200625000 : ℝ) * p ^ 3 * p' ^ 3 * a * a' +
      (199266489017819/26904200625000 : ℝ) * p ^ 3 * p' ^ 3 * a ^ 2 +
      (408022230177019/44840334375000 : ℝ) * p ^ 4 * p' ^ 2 * a' ^ 2 +
      (1363616253833971/89680668750000 : ℝ) * p ^ 4 * p' ^ 2 * a * a' +
      (589161189326933/89680668750000 : ℝ) * p ^ 4 * p' ^ 2 * a ^ 2 +
      (986043945150133/280252089843750 : ℝ) * p ^ 5 * p' * a' ^ 2 +
      (3556517178731797/560504179687500 : ℝ) * p ^ 5 * p' * a * a' +
      (1732079126548031/560504179687500 : ℝ) * p ^ 5 * p' * a ^ 2 +
      (2412289136588431/4203781347656250 : ℝ) * p ^ 6 * a' ^ 2 +
      (9445882217647579/8407562695312500 : ℝ) * p ^ 6 * a * a' +
      (5296162979254967/8407562695312500 : ℝ) * p ^ 6 * a ^ 2 := by
  positivity

theorem kt_slope_3 (J P A : ℝ) (h0 : 0 ≤ J) (h1 : J ≤ 3 / 2) (h2 : 1 / 2 ≤ P) (h3 : P ≤ 7 / 5) (h4 : 3 / 10 ≤ A) (h5 : A ≤ 21 / 20) : 1/100 ≤
      (2493911/10000000 : ℝ) + (-329067/10000000 : ℝ) * A + (-13953/250000 : ℝ) * A ^ 2 + (-910239/5000000 : ℝ) * P + (481497/1000000 : ℝ) * P * A + (368217/25000000 : ℝ) * P ^ 2 + (-63159/1250000 : ℝ) * P ^ 3 + (2959083/1000000000 : ℝ) * P ^ 6 + (-2093/200000 : ℝ) * P ^ 6 * A ^ 2 + (271263/1000000 : ℝ) * J + (147581/500000 : ℝ) * J * A + (-854559/5000000 : ℝ) * J * A ^ 2 + (139331/250000000 : ℝ) * J * P ^ 6 + (40517/3125000 : ℝ) * J * P ^ 6 * A ^ 2 + (945891/62500000 : ℝ) * J ^ 2 + (-31593/62500 : ℝ) * J ^ 2 * A + (60537/400000 : ℝ) * J ^ 2 * A ^ 2 + (115083/12500000 : ℝ) * J ^ 2 * P ^ 3 + (-15261183/10000000000 : ℝ) * J ^ 2 * P ^ 6 * A := by
  have e0 := kt_slope_3_pos0 (P - 1 / 2) (7 / 5 - P) (A - 3 / 10) (21 / 20 - A) (by linarith) (by linarith) (by linarith) (by linarith)
  have e1 := kt_slope_3_pos1 (P - 1 / 2) (7 / 5 - P) (A - 3 / 10) (21 / 20 - A) (by linarith) (by linarith) (by linarith) (by linarith)
  have e2 := kt_slope_3_pos2 (P - 1 / 2) (7 / 5 - P) (A - 3 / 10) (21 / 20 - A) (by linarith) (by linarith) (by linarith) (by linarith)
  have hJ : 0 ≤ 3 / 2 - J := by linarith
  have h := add_nonneg (add_nonneg (mul_nonneg (pow_nonneg hJ 2) e0) (mul_nonneg (mul_nonneg h0 hJ) e1)) (mul_nonneg (pow_nonneg h0 2) e2)
  rw [← sub_nonneg]
  refine le_of_le_of_eq h ?_
  ring

theorem kt_slope_4_pos0 (p p' a a' : ℝ) (hp : 0 ≤ p) (hp' : 0 ≤ p') (ha : 0 ≤ a) (ha' : 0 ≤ a') : 0 ≤
      (6510591691/21523360500 : ℝ) * p' ^ 6 * a' ^ 2 +
      (16672187957/21523360500 : ℝ) * p' ^ 6 * a * a' +
      (35276659939/86093442000 : ℝ) * p' ^ 6 * a ^ 2 +
      (14814706237/8968066875 : ℝ) * p * p' ^ 5 * a' ^ 2 +
      (43079801099/8968066875 : ℝ) * p * p' ^ 5 * a * a' +
      (99583087573/35872267500 : ℝ) * p * p' ^ 5 * a ^ 2 +
      (6523492703/1793613375 : ℝ) * p ^ 2 * p' ^ 4 * a' ^ 2 +
      (21924082081/1793613375 : ℝ) * p ^ 2 * p' ^ 4 * a * a' +
      (54789540887/7174453500 : ℝ) * p ^ 2 * p' ^ 4 * a ^ 2 +
      (540417530504/134521003125 : ℝ) * p ^ 3 * p' ^ 3 * a' ^ 2 +
      (2181064820008/134521003125 : ℝ) * p ^ 3 * p' ^ 3 * a * a' +
      (1465134925754/134521003125 : ℝ) * p ^ 3 * p' ^ 3 * a ^ 2 +
      (499406641084/224201671875 : ℝ) * p ^ 4 * p' ^ 2 * a' ^ 2 +
      (2630405088668/224201671875 : ℝ) * p ^ 4 * p' ^ 2 * a * a' +
      (1893436174459/224201671875 : ℝ) * p ^ 4 * p' ^ 2 * a ^ 2 +
      (2902396404352/5605041796875 : ℝ) * p ^ 5 * p' * a' ^ 2 +
      (24422082765704/5605041796875 : ℝ) * p ^ 5 * p' * a * a' +
      (18635252713852/5605041796875 : ℝ) * p ^ 5 * p' * a ^ 2 +
      (1973458520464/84075626953125 : ℝ) * p ^ 6 * a' ^ 2 +
      (54411852364928/84075626953125 : ℝ) * p ^ 6 * a * a' +
      (41665633311964/84075626953125 : ℝ) * p ^ 6 * a ^ 2 := by
  positivity

theorem kt_slope_4_pos1 (p p' a a' : ℝ) (hp : 0 ≤ p) (hp' : 0 ≤ p') (ha : 0 ≤ a) (ha' : 0 ≤ a') : 0 ≤
      (41120414869/26904200625 : ℝ) * p' ^ 6 * a' ^ 2 +
      (200082964741/53808401250 : ℝ) * p' ^ 6 * a * a' +
      (398428426337/215233605000 : ℝ) * p' ^ 6 * a ^ 2 +
      (396587991292/44840334375 : ℝ) * p * p' ^ 5 * a' ^ 2 +
      (1014509737094/44840334375 : ℝ) * p * p' ^ 5 * a * a' +
      (1053474452879/89680668750 : ℝ) * p * p' ^ 5 * a ^ 2 +
      (947287965004/44840334375 : ℝ) * p ^ 2 * p' ^ 4 * a' ^ 2 +
      (2556194628578/44840334375 : ℝ) * p ^ 2 * p' ^ 4 * a * a' +
      (2761759448573/89680668750 : ℝ) * p ^ 2 * p' ^ 4 * a ^ 2 +
      (17827058324864/672605015625 : ℝ) * p ^ 3 * p' ^ 3 * a' ^ 2 +
      (51050286409648/672605015625 : ℝ) * p ^ 3 * p' ^ 3 * a * a' +
      (28659013409684/672605015625 : ℝ) * p ^ 3 * p' ^ 3 * a ^ 2 +
      (20524827665224/1121008359375 : ℝ) * p ^ 4 * p' ^ 2 * a' ^ 2 +
      (62992995665168/1121008359375 : ℝ) * p ^ 4 * p' ^ 2 * a * a' +
      (36750034043344/1121008359375 : ℝ) * p ^ 4 * p' ^ 2 * a ^ 2 +
      (184391986016272/28025208984375 : ℝ) * p ^ 5 * p' * a' ^ 2 +
      (615013391904704/28025208984375 : ℝ) * p ^ 5 * p' * a * a' +
      (373079829166132/28025208984375 : ℝ) * p ^ 5 * p' * a ^ 2 +
      (408577506138904/420378134765625 : ℝ) * p ^ 6 * a' ^ 2 +
      (1498421749507928/420378134765625 : ℝ) * p ^ 6 * a * a' +
      (943468641469174/420378134765625 : ℝ) * p ^ 6 * a ^ 2 := by
  positivity

theorem kt_slope_4_pos2 (p p' a a' : ℝ) (hp : 0 ≤ p) (hp' : 0 ≤ p') (ha : 0 ≤ a) (ha' : 0 ≤ a') : 0 ≤
      (924732379061/1076168025000 : ℝ) * p' ^ 6 * a' ^ 2 +
      (2518366851599/2152336050000 : ℝ) * p' ^ 6 * a * a' +
      (171670302463/538084012500 : ℝ) * p' ^ 6 * a ^ 2 +
      (2250980961227/448403343750 : ℝ) * p * p' ^ 5 * a' ^ 2 +
      (6485743898393/896806687500 : ℝ) * p * p' ^ 5 * a * a' +
      (507341674516/224201671875 : ℝ) * p * p' ^ 5 * a ^ 2 +
      (5458599738089/448403343750 : ℝ) * p ^ 2 * p' ^ 4 * a' ^ 2 +
      (16621473241751/896806687500 : ℝ) * p ^ 2 * p' ^ 4 * a * a' +
      (2913097044599/448403343750 : ℝ) * p ^ 2 * p' ^ 4 * a ^ 2 +
      (52609246321892/3363025078125 : ℝ) * p ^ 3 * p' ^ 3 * a' ^ 2 +
      (84558888020314/3363025078125 : ℝ) * p ^ 3 * p' ^ 3 * a * a' +
      (32670662572922/3363025078125 : ℝ) * p ^ 3 * p' ^ 3 * a ^ 2 +
      (62833019659972/5605041796875 : ℝ) * p ^ 4 * p' ^ 2 * a' ^ 2 +
      (106571224481549/5605041796875 : ℝ) * p ^ 4 * p' ^ 2 * a * a' +
      (90058896624029/11210083593750 : ℝ) * p ^ 4 * p' ^ 2 * a ^ 2 +
      (595003861220716/140126044921875 : ℝ) * p ^ 5 * p' * a' ^ 2 +
      (1065611992278872/140126044921875 : ℝ) * p ^ 5 * p' * a * a' +
      (494439653087281/140126044921875 : ℝ) * p ^ 5 * p' * a ^ 2 +
      (1405986647413762/2101890673828125 : ℝ) * p ^ 6 * a' ^ 2 +
      (2662153576658354/2101890673828125 : ℝ) * p ^ 6 * a * a' +
      (2784358688381309/4203781347656250 : ℝ) * p ^ 6 * a ^ 2 := by
  positivity

theorem kt_slope_4 (J P A : ℝ) (h0 : 0 ≤ J) (h1 : J ≤ 3 / 2) (h2 : 1 / 2 ≤ P) (h3 : P ≤ 7 / 5) (h4 : 3 / 10 ≤ A) (h5 : A ≤ 21 / 20) : 1/100 ≤
      (710661/2500000 : ℝ) + (-109689/2500000 : ℝ) * A + (-4651/62500 : ℝ) * A ^ 2 + (-303413/1250000 : ℝ) * P + (481497/1000000 : ℝ) * P * A + (40913/1562500 : ℝ) * P ^ 2 + (-21053/312500 : ℝ) * P ^ 3 + (328787/62500000 : ℝ) * P ^ 6 + (-2093/200000 : ℝ) * P ^ 6 * A ^ 2 + (213061/625000 : ℝ) * J + (147581/500000 : ℝ) * J * A + (-854559/5000000 : ℝ) * J * A ^ 2 + (-134213/125000000 : ℝ) * J * P ^ 6 + (40517/3125000 : ℝ) * J * P ^ 6 * A ^ 2 + (105099/3906250 : ℝ) * J ^ 2 + (-31593/62500 : ℝ) * J ^ 2 * A + (60537/400000 : ℝ) * J ^ 2 * A ^ 2 + (38361/3125000 : ℝ) * J ^ 2 * P ^ 3 + (-1695687/625000000 : ℝ) * J ^ 2 * P ^ 6 * A := by
  have e0 := kt_slope_4_pos0 (P - 1 / 2) (7 / 5 - P) (A - 3 / 10) (21 / 20 - A) (by linarith) (by linarith) (by linarith) (by linarith)
  have e1 := kt_slope_4_pos1 (P - 1 / 2) (7 / 5 - P) (A - 3 / 10) (21 / 20 - A) (by linarith) (by linarith) (by linarith) (by linarith)
  have e2 := kt_slope_4_pos2 (P - 1 / 2) (7 / 5 - P) (A - 3 / 10) (21 / 20 - A) (by linarith) (by linarith) (by linarith) (by linarith)
  have hJ : 0 ≤ 3 / 2 - J := by linarith
  have h := add_nonneg (add_nonneg (mul_nonneg (pow_nonneg hJ 2) e0) (mul_nonneg (mul_nonneg h0 hJ) e1)) (mul_nonneg (pow_nonneg h0 2) e2)
  rw [← sub_nonneg]
  refine le_of_le_of_eq h ?_
  ring

end Xdyn.Forces
