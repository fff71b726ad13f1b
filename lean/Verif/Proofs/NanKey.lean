import Verif.Proofs.ZeroRun
import Verif.Proofs.F64Poison

/-!
# A pair f, g for which the solver converts a NaN

f = x^4 φ(x^64) with a unit φ of Z[x]/(x^8 + 1), and g = γ(x^64). At N = 8 the field norms are x^4 φ^64, whose coefficients vanish when
scaled, and γ^64, whose scaled coefficients have a computed transform that is zero at the first point.
-/

namespace Falcon

open Finset Polynomial

/-- f = x^4 φ(x^64). -/
def nanPhi : List ℤ := [
  1, 3, 3, 3, 0, -3, -3, -3]

/-- g = γ(x^64). -/
def nanGamma : List ℤ := [
  -58, 43, 30, -8, 60, -40, 28, 17]

/-- φ^2 modulo x^8 + 1. -/
def nanPhi1 : List ℤ := [
  55, 42, 24, 6, 0, -6, -24, -42]

/-- φ^4 modulo x^8 + 1. -/
def nanPhi2 : List ℤ := [
  7777, 6924, 4872, 2388, 0, -2388, -4872, -6924]

/-- φ^8 modulo x^8 + 1. -/
def nanPhi3 : List ℤ := [
  215243137, 198432024, 151087344, 81341736, 0, -81341736, -151087344, -198432024]

/-- φ^16 modulo x^8 + 1. -/
def nanPhi4 : List ℤ := [
  183967871388009985, 169962811292625456, 130081428520666464, 70398222095561808, 0, -70398222095561808, -130081428520666464, -169962811292625456]

/-- φ^32 modulo x^8 + 1. -/
def nanPhi5 : List ℤ := [
  135373067588407215996857321223100417, 125068406384930675942160007819785312, 95723214047122343204692175408634048,
  51805030122496465603146892951507104, 0, -51805030122496465603146892951507104, -95723214047122343204692175408634048,
  -125068406384930675942160007819785312]

/-- φ^64 modulo x^8 + 1. -/
def nanPhi6 : List ℤ := [
  73303469686635737741140929577202446866517931659690013948219941902114817, 67723575305544305266479927762694317346867538510695053994677716198910144,
  51833380499922656030333750777527054057373227805561041632955800072579456, 28052023383952075664289530319723696263246355257570346579959781212176704,
  0, -28052023383952075664289530319723696263246355257570346579959781212176704,
  -51833380499922656030333750777527054057373227805561041632955800072579456, -67723575305544305266479927762694317346867538510695053994677716198910144]

/-- γ^2 modulo x^8 + 1. -/
def nanGamma1 : List ℤ := [
  -4018, -760, -6319, 3708, -6172, 8368, -3313, -2924]

/-- γ^4 modulo x^8 + 1. -/
def nanGamma2 : List ℤ := [
  -130320522, 97017648, -37877628, -840096, 121851888, -124099936, 97105132, -122993312]

/-- γ^8 modulo x^8 + 1. -/
def nanGamma3 : List ℤ := [
  33148311959034372, -4197392627488704, -19987445301842896, 46944782627831552, -70444227830806592, 79939309316910976, -73746920802542320,
  60095416129297920]

/-- γ^16 modulo x^8 + 1. -/
def nanGamma4 : List ℤ := [
  -13812582625774223054744930010375664, 20310626894500675734188939382153728, -23730197489362150638727772675606144,
  23537377107104531644032159994290176, -19711388323839118315832359783193088, 12878161728950680716198786737847296,
  -4151891331289944904387037895733120, -5206330305005955523503938094315520]

/-- γ^32 modulo x^8 + 1. -/
def nanGamma5 : List ℤ := [
  -789550426843274652429074250890057439691132374325574779230529649524480, -105036759570730313484874673856817236120498956715606096177447408222208,
  983632777273382155208927002299053528324220283806778003158369710059520, -1712484847527806388948132143679834438583502732712932775628540398927872,
  2180628127400318573898529489697567552904049680308525362149089952055296, -2316788103123393143776877471564009623925393854505492209541273536200704,
  2100236281326510235460874765414843996312249669678758368283854655328256, -1563940699264196606894212502879541217317397380129763303235161552912384]

/-- γ^64 modulo x^8 + 1. -/
def nanGamma6 : List ℤ := [
  -16526943215630039978658206567455335493595731232258949963373217455141091934524343889008055847466951058161659474141796429305929909050395262976,
  20539902525517036985655426173535461271096905585326749315104791931528566169884807339187147435644385604017974871274357013019449565691900854272,
  -21425847870557870543118209572719080920483280421361539022485108491946918572916124151300303086167510828586650348676113904698493167171849420800,
  19049902103045740497686369229436585402730087365358948710087578202320859254495926059788807049484570426470058768826343728746768450442363928576,
  -13773781428119353983664454784311020556363453398936501527074505048088771000917209798753784843207722313745704443073429652129603368868921737216,
  6400727390442068637907051731417456751016239286303780303829327199763927399528438759076445203363217625368752708948842606741653550318781202432,
  1946779369649854319194871551400129064630910928344989752364892890495572491129973994937196516656135683291103787481341086985689383152880975872,
  -9997906618313952229680402780120148075416471184277398343728893751684591827330818693310735784628441765958731655734434196463305004117382922240]

/-- f at N = 8. -/
def nanF3 : List ℤ := [
  0, 28052023383952075664289530319723696263246355257570346579959781212176704,
  51833380499922656030333750777527054057373227805561041632955800072579456, 67723575305544305266479927762694317346867538510695053994677716198910144,
  73303469686635737741140929577202446866517931659690013948219941902114817, 67723575305544305266479927762694317346867538510695053994677716198910144,
  51833380499922656030333750777527054057373227805561041632955800072579456, 28052023383952075664289530319723696263246355257570346579959781212176704]

/-- f at N = 4. -/
def nanF2 : List ℤ := [
  -48926646634423881954586808839856694558492182258668537145547700898547222910968507268117381704646657,
  -34596363615919099765318545389014861517389860071988342648187104766246565694525469768325292176831232, 0,
  34596363615919099765318545389014861517389860071988342648187104766246565694525469768325292176831232]

/-- g at N = 4. -/
def nanG2 : List ℤ := [
  8435999619715402413666359549196759399050303767675910285333305207555168179436851779890763495860222819143252630090355771884652930138648608620610683890809730459403701185295653655656541021935218003689215658648769261342569747248136022425949752040351535676234582196224,
  14800942346598942763532868770820492860312095893940897217490387217178139719884786464242221692576652960081988777419721765386103422931500972503533935433727281468653680566281870604494099558780391253003135570089028468363461401640310433849190103600174374276963147710464,
  12495694712206362141453161920041209115416084272454137606683168020538547519619996654981176872747276100679118473124504725917123346651541840969976837774972062317113756525069984857560204991119889547296168787661436959894069528479897541639613311566999998331843503980544,
  2870636552351332054295832083056634658400507684126812896236784987099533881560115698970856959035738190619060536835208083960620050438782884517478711963037336645505872943007852073656483031913612352568849962122411747890678149161371560549780652998942117299302036406272]

/-- g at N = 2. -/
def nanG1 : List ℤ := [
  -44538040378520318896763795987950592630384177849127929964295661606250607702766819045451969866382313543781724750607617075775444391350595966242068162978103631788859485551318705559166362196539219994331744762595721384263370803047823156358242651835724608184445382746931022803089962633273456422017175945884819649542726376910688367204754222486684397889883585223527865883943251480007385719661530183927220699569492299907515277491863295730453177309276612566559185250285834888051353112682551507071706198711656635629716994831417344,
  11548854995302909217448517785496851783687849060282540879233485579916145913403628530611348448033418522808060218789711278142136016055288024968581714785044556124033075086155403306384511668462626624940494828114304277323226916595658391497771479296491381462093693333841695659544131571194074019719935452275736805949153122670360399461688511616323359643306066761710938651378011221268516735550142863761035805593215145314338049702610338005907757449565673521738944751891243396258771093735556973946993990446357246641405054838374400]

/-- g at N = 1. -/
def nanG0 : List ℤ := [
  2117013092461239310234290915792903869858450402169500794565602605043826831864565103934862109131935904468765985773284651830308632306879378141852620686858669447763067997572473083082865520450322134925003433894652246054251545155832946238865675907742189921587669813142375979898159292043894213896147688398133777672683924345876422529369264586438725182724062605431585126835424218716378443226075745709286843687665880317811039013580193363155987427206707804526792633414144808274968512878843925029263990755586552647347650934669585658255155781416370209256108795391183460373375918104984375066190769196616313335149624815070229174012714803032220261395512679865246978082123625571342773899893300274265974376978045789429977456060132989900104778183839263270297020674486656398390616829788144301808035874248008063805502119617563651186307035644435691039405112092616933888941223435169574362986045259275094852384963838215803600038559280294088879671402896535246838541930614832631729564091431176946096016934342327168235866576234311001425176889049248849506479374336]

/-- G at N = 4, before the reduction. -/
def nanGG2 : List ℤ := [
  -601259560490435085339917293832998919429310427776777652981635696342246822352891985817894503768402767873,
  425154712476029817015999604285603633187203990424664742803571330472404045820023497982949515561079010048, 0,
  -425154712476029817015999604285603633187203990424664742803571330472404045820023497982949515561079010048]

/-- G at N = 8, before the reduction. -/
def nanGG3 : List ℤ := [
  0,
  -2670087080126652039345116473801432050573027423376081116609976143231052518079399377885949835572989574270171497039353341208602762701992567074628083687374528,
  2043596177073095359329875680848193901922889165994401147769848490153759072253669957295798808089195462625086635212492406634703518675420175504774358876064128,
  1105986281305636221816316635412468531858202528631780796974657009418118801079758837205389239450018479324616815813048123692338269783237658023863700024355008,
  -2890081429630580537899604444224802759341181880049784936821977821897610713311022122992386985567358129065000550441195563598292632928744656058173370440126465,
  1105986281305636221816316635412468531858202528631780796974657009418118801079758837205389239450018479324616815813048123692338269783237658023863700024355008,
  2043596177073095359329875680848193901922889165994401147769848490153759072253669957295798808089195462625086635212492406634703518675420175504774358876064128,
  -2670087080126652039345116473801432050573027423376081116609976143231052518079399377885949835572989574270171497039353341208602762701992567074628083687374528]

/-- g at N = 8, scaled. -/
def nanS : List ℤ := [
  -3125102864942514, 3883918967388201, -4051443614859077, 3602172698385056, -2604503642355308, 1210322516668971, 368119240571361, -1890518180444390]

/-! ### Lists as polynomials -/

/-- Reduction modulo x^m + 1. -/
def redL (m : ℕ) (l : List ℤ) : List ℤ := lAdd (l.take m) ((l.drop m).map (-1 * ·))

/-- p(x^2). -/
def liftL : List ℤ → List ℤ
  | [] => []
  | x :: l => x :: 0 :: liftL l

/-- p(-x). -/
def galL : List ℤ → List ℤ
  | [] => []
  | x :: l => x :: (galL l).map (-1 * ·)

theorem evL_lift {A : Type*} [CommRing A] (y : A) (l : List ℤ) : evL y (liftL l) = evL (y ^ 2) l := by
  induction l with
  | nil => rfl
  | cons x l ih => simp only [liftL, evL, ih, Int.cast_zero]; ring

theorem evL_gal {A : Type*} [CommRing A] (y : A) (l : List ℤ) : evL y (galL l) = evL (-y) l := by
  induction l with
  | nil => rfl
  | cons x l ih => simp only [galL, evL, evL_map, ih]; push_cast; ring

theorem evL_comp (p q : ℤ[X]) (l : List ℤ) : (evL p l).comp q = evL (p.comp q) l := by
  induction l with
  | nil => simp [evL]
  | cons x l ih => simp [evL, ih]

theorem evL_red {m : ℕ} {l : List ℤ} (h : m ≤ l.length) : ModEqXN m (evL (X : ℤ[X]) l) (evL X (redL m l)) := by
  refine ⟨evL X (l.drop m), ?_⟩
  rw [evL_split X m l h, redL, evL_lAdd, evL_map]
  push_cast
  ring

/-- The first 2^k entries are the list. -/
def LowL (k : ℕ) (a : Mem ℤ) (l : List ℤ) : Prop := l.length = 2 ^ k ∧ ∀ i, i < 2 ^ k → a i = l.getD i 0

theorem lowL_poly {k : ℕ} {a : Mem ℤ} {l : List ℤ} (h : LowL k a l) : toPoly (2 ^ k) a = evL X l := by
  have := polyZ_stride (S := 1) (N := 2 ^ k) one_pos l (by rw [h.1, mul_one])
  rw [pow_one] at this
  rw [← this]
  refine toPoly_congr fun i hi => ?_
  rw [h.2 i hi]
  simp [strideMem, Nat.mod_one]

theorem poly_lowL {k : ℕ} {a : Mem ℤ} {l : List ℤ} (hl : l.length = 2 ^ k) (h : ModEqXN (2 ^ k) (toPoly (2 ^ k) a) (evL X l)) :
    LowL k a l := by
  refine ⟨hl, modEq_coeff (by positivity) ?_⟩
  have e : LowL k (fun i => l.getD i 0) l := ⟨hl, fun i _ => rfl⟩
  rw [lowL_poly e]
  exact h

theorem karamul_low {k : ℕ} {a b : Mem ℤ} {la lb l : List ℤ} (ha : toPoly (2 ^ k) a = evL X la) (hb : toPoly (2 ^ k) b = evL X lb)
    (h1 : 2 ^ k ≤ (lMul la lb).length) (hl : redL (2 ^ k) (lMul la lb) = l) (h2 : l.length = 2 ^ k) : LowL k (karamul k a b) l := by
  refine poly_lowL h2 (ModEqXN.trans (ModEqXN.symm (karamul_poly k a b)) ?_)
  rw [ha, hb, ← evL_lMul, ← hl]
  exact evL_red h1

theorem lift_low {k : ℕ} {a : Mem ℤ} {l : List ℤ} (h : LowL k a l) : toPoly (2 ^ (k + 1)) (lift k a) = evL X (liftL l) := by
  rw [pow_succ', lift_poly, lowL_poly h, evL_comp, evL_lift, X_comp]

theorem gal_low {k : ℕ} {a : Mem ℤ} {l : List ℤ} (h : LowL k a l) : toPoly (2 ^ k) (galoisConjugate k a) = evL X (galL l) := by
  rw [galois_poly, lowL_poly h, evL_comp, evL_gal, X_comp]

theorem fieldNorm_low {k : ℕ} {a : Mem ℤ} {l r : List ℤ} (h : LowL (k + 1) a l) (h1 : 2 ^ k ≤ (normP (2 ^ k) l).length)
    (hl : normL (2 ^ k) l = r) (h2 : r.length = 2 ^ k) : LowL k (fieldNorm k a) r := by
  refine poly_lowL h2 (ModEqXN.trans (ModEqXN.symm (fieldNorm_poly k a)) ?_)
  have e0 : LowL k (fun i => a (2 * i)) (evens (2 ^ k) l) := ⟨by simp [evens], fun i hi => by
    show a (2 * i) = _
    rw [h.2 _ (by rw [pow_succ']; omega)]
    simp [evens, List.getD_eq_getElem?_getD, hi]⟩
  have e1 : LowL k (fun i => a (2 * i + 1)) (odds (2 ^ k) l) := ⟨by simp [odds], fun i hi => by
    show a (2 * i + 1) = _
    rw [h.2 _ (by rw [pow_succ']; omega)]
    simp [odds, List.getD_eq_getElem?_getD, hi]⟩
  rw [lowL_poly e0, lowL_poly e1, ← hl]
  have t : evL (X : ℤ[X]) (normP (2 ^ k) l) = evL X (evens (2 ^ k) l) ^ 2 - X * evL X (odds (2 ^ k) l) ^ 2 := by
    unfold normP
    rw [evL_lAdd, evL_lMul, evL, evL_map, evL_lMul]
    push_cast
    ring
  rw [← t]
  exact evL_red h1

/-! ### Field norms of polynomials in x^2 -/

theorem expand_dvd {m p : ℤ[X]} (hm : m.Monic) (h : expand ℤ 2 m ∣ expand ℤ 2 p) : m ∣ p := by
  rw [← modByMonic_eq_zero_iff_dvd hm]
  have h1 : expand ℤ 2 m ∣ expand ℤ 2 (p %ₘ m) := by
    rw [modByMonic_eq_sub_mul_div, map_sub, map_mul]
    exact dvd_sub h (dvd_mul_right _ _)
  by_contra hne
  refine (hm.expand (by norm_num)).not_dvd_of_degree_lt (expand_ne_zero (by norm_num) |>.mpr hne) ?_ h1
  have h2 := degree_modByMonic_lt p hm
  rw [degree_eq_natDegree hne, degree_eq_natDegree hm.ne_zero] at h2
  rw [degree_eq_natDegree (expand_ne_zero (by norm_num) |>.mpr hne), degree_eq_natDegree (hm.expand (by norm_num)).ne_zero, natDegree_expand,
    natDegree_expand]
  have h3 : (p %ₘ m).natDegree < m.natDegree := by exact_mod_cast h2
  exact_mod_cast Nat.mul_lt_mul_of_pos_right h3 (by norm_num)

theorem modEq_expand {N : ℕ} (hN : 0 < N) {p r : ℤ[X]} (h : ModEqXN (2 * N) (p.comp (X ^ 2)) (r.comp (X ^ 2))) : ModEqXN N p r := by
  have hm : (X ^ N + 1 : ℤ[X]).Monic := by
    have := monic_X_pow_add_C (R := ℤ) (n := N) 1 (by omega)
    simpa using this
  refine expand_dvd hm ?_
  unfold ModEqXN at h
  rw [map_sub, map_add, map_pow, expand_X, map_one, ← pow_mul, expand_eq_comp_X_pow, expand_eq_comp_X_pow]
  exact h

theorem modEq_neg {N : ℕ} {p r : ℤ[X]} (h : ModEqXN (2 * N) p r) : ModEqXN (2 * N) (p.comp (-X)) (r.comp (-X)) := by
  obtain ⟨c, hc⟩ := h
  refine ⟨c.comp (-X), ?_⟩
  have := congrArg (fun t => t.comp (-X)) hc
  simpa [sub_comp, mul_comp, (even_two_mul N).neg_pow] using this

theorem norm_even {k : ℕ} {a : Mem ℤ} {P : ℤ[X]} (h : ModEqXN (2 ^ (k + 1)) (toPoly (2 ^ (k + 1)) a) (P.comp (X ^ 2))) :
    ModEqXN (2 ^ k) (toPoly (2 ^ k) (fieldNorm k a)) (P ^ 2) := by
  have h1 := norm_lift k a
  apply modEq_expand (by positivity)
  generalize toPoly (2 ^ (k + 1)) a = A at *
  rw [pow_succ' 2 k] at *
  have h2 := modEq_neg h
  rw [comp_assoc, show (X ^ 2 : ℤ[X]).comp (-X) = X ^ 2 by simp] at h2
  refine ModEqXN.trans h1 ?_
  rw [modEq_iff] at *
  rw [pow_two, mul_comp, map_mul, map_mul, h, h2]

theorem norm_step {k s e : ℕ} {a : Mem ℤ} {W V P : ℤ[X]} (hW : W = V.comp (X ^ 2)) (hV : V ^ 2 = W)
    (h : ModEqXN (2 ^ (k + 1)) (toPoly (2 ^ (k + 1)) a) (W * P.comp (X ^ 2 ^ (s + 1)) ^ e)) :
    ModEqXN (2 ^ k) (toPoly (2 ^ k) (fieldNorm k a)) (W * P.comp (X ^ 2 ^ s) ^ (2 * e)) := by
  have h1 : W * P.comp (X ^ 2 ^ (s + 1)) ^ e = (V * P.comp (X ^ 2 ^ s) ^ e).comp (X ^ 2) := by
    rw [mul_comp, pow_comp, comp_assoc, ← hW, pow_comp, X_comp, ← pow_mul, pow_succ']
  rw [h1] at h
  have := norm_even h
  rwa [mul_pow, hV, ← pow_mul, mul_comm e] at this

theorem solve_descend {quot : RedQuot} {fuel k E : ℕ} {W V P R : ℤ[X]} (hW : W = V.comp (X ^ 2)) (hV : V ^ 2 = W)
    (hb : ∀ f g : Mem ℤ, ModEqXN (2 ^ k) (toPoly (2 ^ k) f) (W * P ^ E) → ModEqXN (2 ^ k) (toPoly (2 ^ k) g) (1 * R ^ E) →
      ∃ e, ntruSolve quot fuel k f g = some (.error e)) (s : ℕ) : ∀ (m : ℕ) (f g : Mem ℤ), 2 ^ s * m = E →
    ModEqXN (2 ^ (k + s)) (toPoly (2 ^ (k + s)) f) (W * P.comp (X ^ 2 ^ s) ^ m) →
    ModEqXN (2 ^ (k + s)) (toPoly (2 ^ (k + s)) g) (1 * R.comp (X ^ 2 ^ s) ^ m) →
    ∃ e, ntruSolve quot fuel (k + s) f g = some (.error e) := by
  induction s with
  | zero =>
    intro m f g hm hf hg
    rw [pow_zero, one_mul] at hm
    subst hm
    simp only [pow_zero, pow_one, comp_X] at hf hg
    exact hb f g hf hg
  | succ s ih =>
    intro m f g hm hf hg
    obtain ⟨e, he⟩ := ih (2 * m) (fieldNorm (k + s) f) (fieldNorm (k + s) g) (by rw [← hm, pow_succ]; ring) (norm_step hW hV hf)
      (norm_step (V := 1) (by simp) (by simp) hg)
    refine ⟨e, ?_⟩
    rw [← add_assoc, ntruSolve]
    simp only [he]
    rfl

end Falcon
