import Mathlib.Data.Rat.Defs

/-!
# Kernel table of the ES gridder

Generated from `/repo/src/ska-sdp-func/grid_data/sdp_gridder_uvw_es_fft_utils.cpp` L242-485
(`KernelDB`).  The column `K_e0` is not used by the code and left out.
-/

namespace Sdp.EsFft

/-- One row: support, oversampling factor, accuracy, beta, correction range (L241-485). -/
structure Row where
  support : Nat
  os : ℚ
  eps : ℚ
  beta : ℚ
  corr : ℚ
  deriving DecidableEq

/-- `KernelDB` (L242-485), decimal values taken exactly. -/
def kernelDB : Array Row := #[
  ⟨4, 23/20, 25654879/1000000000, 13873426689/10000000000, 103501/10000⟩,
  ⟨4, 6/5, 13809249/1000000000, 2601683833/2000000000, 802317/100000⟩,
  ⟨4, 5/4, 17168137/2000000000, 2654817787/2000000000, 312651/50000⟩,
  ⟨4, 13/10, 28661249/5000000000, 13617063353/10000000000, 25459/5000⟩,
  ⟨4, 27/20, 42494419/10000000000, 346137497/250000000, 17307/4000⟩,
  ⟨4, 7/5, 1045611/312500000, 450166409/312500000, 185667/50000⟩,
  ⟨4, 29/20, 28187359/10000000000, 7317610033/5000000000, 10334/3125⟩,
  ⟨4, 3/2, 23843943/10000000000, 7769844581/5000000000, 29249/10000⟩,
  ⟨4, 31/20, 5085949/2500000000, 15991008653/10000000000, 266733/100000⟩,
  ⟨4, 8/5, 17143851/10000000000, 3316309273/2000000000, 122557/50000⟩,
  ⟨4, 33/20, 460339/312500000, 3427066283/2000000000, 1823/800⟩,
  ⟨4, 17/10, 3138623/2500000000, 8732165189/5000000000, 26809/12500⟩,
  ⟨4, 7/4, 1326363/1250000000, 8943663453/5000000000, 202741/100000⟩,
  ⟨4, 9/5, 90885567/100000000000, 9061154713/5000000000, 193387/100000⟩,
  ⟨4, 37/20, 7757401/10000000000, 18304451327/10000000000, 92711/50000⟩,
  ⟨4, 19/10, 3370199/5000000000, 18484487383/10000000000, 178503/100000⟩,
  ⟨4, 39/20, 58655391/100000000000, 2342776961/1250000000, 172203/100000⟩,
  ⟨4, 2, 51911189/100000000000, 190694363/100000000, 166473/100000⟩,
  ⟨4, 41/20, 368187/781250000, 19287029587/10000000000, 10103/6250⟩,
  ⟨4, 21/10, 21495549/50000000000, 1216771561/625000000, 157393/100000⟩,
  ⟨4, 43/20, 39952939/100000000000, 783934481/400000000, 153683/100000⟩,
  ⟨4, 11/5, 18364479/50000000000, 9867222521/5000000000, 30057/20000⟩,
  ⟨4, 9/4, 34355459/100000000000, 309904323/156250000, 147281/100000⟩,
  ⟨4, 23/10, 16119211/50000000000, 4980633101/2500000000, 36139/25000⟩,
  ⟨4, 47/20, 7588693/25000000000, 4000371413/2000000000, 35519/25000⟩,
  ⟨4, 12/5, 5800639/20000000000, 4011855073/2000000000, 139847/100000⟩,
  ⟨4, 49/20, 27493243/100000000000, 628887307/312500000, 17221/12500⟩,
  ⟨4, 5/2, 26418063/100000000000, 5042969241/2500000000, 135887/100000⟩,
  ⟨5, 23/20, 44018463/5000000000, 14211620799/10000000000, 204779/10000⟩,
  ⟨5, 6/5, 22716059/5000000000, 14604589193/10000000000, 68207/5000⟩,
  ⟨5, 5/4, 25659469/10000000000, 15114537479/10000000000, 246127/25000⟩,
  ⟨5, 13/10, 7474951/5000000000, 313240097/200000000, 753251/100000⟩,
  ⟨5, 27/20, 23218531/25000000000, 7970322657/5000000000, 614913/100000⟩,
  ⟨5, 7/5, 1455021/2500000000, 8096655937/5000000000, 518009/100000⟩,
  ⟨5, 29/20, 41837131/100000000000, 16702721179/10000000000, 8821/2000⟩,
  ⟨5, 3/2, 32139657/100000000000, 2138325989/1250000000, 385869/100000⟩,
  ⟨5, 31/20, 25831183/100000000000, 17411526213/10000000000, 344991/100000⟩,
  ⟨5, 8/5, 21156623/100000000000, 4423629361/2500000000, 312801/100000⟩,
  ⟨5, 33/20, 9056163/50000000000, 18069777863/10000000000, 57223/20000⟩,
  ⟨5, 17/10, 7588543/50000000000, 18378820613/10000000000, 132387/50000⟩,
  ⟨5, 7/4, 6172589/50000000000, 4704957597/2500000000, 123019/50000⟩,
  ⟨5, 9/5, 10093043/100000000000, 9612594443/5000000000, 230621/100000⟩,
  ⟨5, 37/20, 85743423/1000000000000, 19766846627/10000000000, 54221/25000⟩,
  ⟨5, 19/10, 37583839/500000000000, 20116590189/10000000000, 206069/100000⟩,
  ⟨5, 39/20, 65915521/1000000000000, 20401734131/10000000000, 4923/2500⟩,
  ⟨5, 2, 57747201/1000000000000, 20640495669/10000000000, 37811/20000⟩,
  ⟨5, 41/20, 6443283/125000000000, 20815539113/10000000000, 45587/25000⟩,
  ⟨5, 21/10, 46026099/1000000000000, 20967549727/10000000000, 88219/50000⟩,
  ⟨5, 43/20, 5240299/125000000000, 21078775421/10000000000, 171291/100000⟩,
  ⟨5, 11/5, 3755449/100000000000, 21195059411/10000000000, 33321/20000⟩,
  ⟨5, 9/4, 17178273/500000000000, 170224061/80000000, 81239/50000⟩,
  ⟨5, 23/10, 31539667/1000000000000, 10674397041/5000000000, 79377/50000⟩,
  ⟨5, 47/20, 14546513/500000000000, 10703365619/5000000000, 77693/50000⟩,
  ⟨5, 12/5, 13699843/500000000000, 10721311011/5000000000, 15237/10000⟩,
  ⟨5, 49/20, 6409599/250000000000, 21486533599/10000000000, 149569/100000⟩,
  ⟨5, 5/2, 24438353/1000000000000, 1347136953/625000000, 146983/100000⟩,
  ⟨6, 23/20, 4729921/2500000000, 14284593523/10000000000, 440159/10000⟩,
  ⟨6, 6/5, 87379161/100000000000, 371798727/250000000, 255241/10000⟩,
  ⟨6, 5/4, 26193793/50000000000, 15596009923/10000000000, 32977/2000⟩,
  ⟨6, 13/10, 6166761/20000000000, 509187193/312500000, 29167/2500⟩,
  ⟨6, 27/20, 9297563/50000000000, 8409147397/5000000000, 223147/25000⟩,
  ⟨6, 7/5, 10913759/100000000000, 17181576557/10000000000, 720067/100000⟩,
  ⟨6, 29/20, 7446073/100000000000, 1774772521/1000000000, 295731/50000⟩,
  ⟨6, 3/2, 13456581/250000000000, 9084900103/5000000000, 503369/100000⟩,
  ⟨6, 31/20, 40746477/1000000000000, 18477830463/10000000000, 17601/4000⟩,
  ⟨6, 8/5, 31441179/1000000000000, 18721012077/10000000000, 391897/100000⟩,
  ⟨6, 33/20, 13050359/500000000000, 377374907/200000000, 355423/100000⟩,
  ⟨6, 17/10, 5382017/250000000000, 19342762857/10000000000, 64303/20000⟩,
  ⟨6, 7/4, 3435423/200000000000, 2465236961/1250000000, 294959/100000⟩,
  ⟨6, 9/5, 2730023/200000000000, 9993503779/5000000000, 274023/100000⟩,
  ⟨6, 37/20, 2119799/200000000000, 10109852609/5000000000, 128281/50000⟩,
  ⟨6, 19/10, 5509869/625000000000, 1033589359/500000000, 60079/25000⟩,
  ⟨6, 39/20, 38143461/5000000000000, 21003673879/10000000000, 56787/25000⟩,
  ⟨6, 2, 65649967/10000000000000, 10636256987/5000000000, 108029/50000⟩,
  ⟨6, 41/20, 28738279/5000000000000, 21458295051/10000000000, 206773/100000⟩,
  ⟨6, 21/10, 50756513/10000000000000, 21511783437/10000000000, 99509/50000⟩,
  ⟨6, 43/20, 8932387/2000000000000, 21743106617/10000000000, 38329/20000⟩,
  ⟨6, 11/5, 38877561/10000000000000, 2733430057/1250000000, 18531/10000⟩,
  ⟨6, 9/4, 8668121/2500000000000, 21957177257/10000000000, 179767/100000⟩,
  ⟨6, 23/10, 15506213/5000000000000, 22033754263/10000000000, 174797/100000⟩,
  ⟨6, 47/20, 27894219/10000000000000, 552422827/250000000, 170327/100000⟩,
  ⟨6, 12/5, 12897313/5000000000000, 11067656377/5000000000, 3327/2000⟩,
  ⟨6, 49/20, 5892851/2500000000000, 22317879841/10000000000, 81189/50000⟩,
  ⟨6, 5/2, 21615297/10000000000000, 2816949809/1250000000, 31741/20000⟩,
  ⟨7, 23/20, 19619007/25000000000, 15248706519/10000000000, 48313/625⟩,
  ⟨7, 6/5, 13563583/50000000000, 15739348793/10000000000, 84601/2000⟩,
  ⟨7, 5/4, 3148657/25000000000, 16245240723/10000000000, 263653/10000⟩,
  ⟨7, 13/10, 14042909/200000000000, 16835745981/10000000000, 177989/10000⟩,
  ⟨7, 27/20, 41972457/1000000000000, 8671712207/5000000000, 130169/10000⟩,
  ⟨7, 7/5, 2378019/100000000000, 8922508869/5000000000, 999361/100000⟩,
  ⟨7, 29/20, 866463/62500000000, 18180597789/10000000000, 25286/3125⟩,
  ⟨7, 3/2, 91605353/10000000000000, 58377571/31250000, 132951/20000⟩,
  ⟨7, 31/20, 6479159/1000000000000, 3837796003/2000000000, 561353/100000⟩,
  ⟨7, 8/5, 46544571/10000000000000, 19536166143/10000000000, 19513/4000⟩,
  ⟨7, 33/20, 35489761/10000000000000, 4946566767/2500000000, 433279/100000⟩,
  ⟨7, 17/10, 6757587/2500000000000, 10013833267/5000000000, 389791/100000⟩,
  ⟨7, 7/4, 10266947/5000000000000, 20289949199/10000000000, 44267/12500⟩,
  ⟨7, 9/5, 8034561/5000000000000, 10298206473/5000000000, 324397/100000⟩,
  ⟨7, 37/20, 6468397/5000000000000, 10360303421/5000000000, 150657/50000⟩,
  ⟨7, 19/10, 1346083/1250000000000, 1045449087/500000000, 35159/12500⟩,
  ⟨7, 39/20, 90890421/100000000000000, 21086185697/10000000000, 264203/100000⟩,
  ⟨7, 2, 3099551/4000000000000, 21278284187/10000000000, 249387/100000⟩,
  ⟨7, 41/20, 68025539/100000000000000, 4260101071/2000000000, 237603/100000⟩,
  ⟨7, 21/10, 60222531/100000000000000, 21361214247/10000000000, 227023/100000⟩,
  ⟨7, 43/20, 50130101/100000000000000, 889261819/400000000, 214207/100000⟩,
  ⟨7, 11/5, 21124381/50000000000000, 11204224953/5000000000, 41149/20000⟩,
  ⟨7, 9/4, 36494171/100000000000000, 11278422229/5000000000, 39673/20000⟩,
  ⟨7, 23/10, 15769097/50000000000000, 11342440883/5000000000, 5994/3125⟩,
  ⟨7, 47/20, 6820731/25000000000000, 2851924331/1250000000, 18589/10000⟩,
  ⟨7, 12/5, 6087631/25000000000000, 11469611767/5000000000, 180593/100000⟩,
  ⟨7, 49/20, 2657879/12500000000000, 5760372397/2500000000, 35157/20000⟩,
  ⟨7, 5/2, 4783709/25000000000000, 5769120553/2500000000, 429/250⟩,
  ⟨8, 6/5, 19507183/250000000000, 324185229/200000000, 18039/250⟩,
  ⟨8, 5/4, 13730459/500000000000, 16851585171/10000000000, 82091/2000⟩,
  ⟨8, 13/10, 6710829/500000000000, 3488474663/2000000000, 131521/5000⟩,
  ⟨8, 27/20, 75158217/10000000000000, 8938391321/5000000000, 186037/10000⟩,
  ⟨8, 7/5, 663631/156250000000, 2286790239/1250000000, 138907/10000⟩,
  ⟨8, 29/20, 12897401/5000000000000, 1871691821/1000000000, 54149/5000⟩,
  ⟨8, 3/2, 8065997/5000000000000, 19213040541/10000000000, 86747/10000⟩,
  ⟨8, 31/20, 5487407/5000000000000, 19637229131/10000000000, 719139/100000⟩,
  ⟨8, 8/5, 1506391/2000000000000, 20002761373/10000000000, 38237/6250⟩,
  ⟨8, 33/20, 27548673/50000000000000, 2534455717/1250000000, 106721/20000⟩,
  ⟨8, 17/10, 20068363/50000000000000, 20498410409/10000000000, 473241/100000⟩,
  ⟨8, 7/4, 2906467/10000000000000, 2073158517/1000000000, 21231/5000⟩,
  ⟨8, 9/5, 10917461/50000000000000, 10453709363/5000000000, 386143/100000⟩,
  ⟨8, 37/20, 3265981/20000000000000, 10582276177/5000000000, 176543/50000⟩,
  ⟨8, 19/10, 6414299/50000000000000, 265769627/125000000, 163741/50000⟩,
  ⟨8, 39/20, 5085567/50000000000000, 21363206613/10000000000, 76401/25000⟩,
  ⟨8, 2, 81881369/1000000000000000, 2674626671/1250000000, 143727/50000⟩,
  ⟨8, 41/20, 69121193/1000000000000000, 214660717/100000000, 33937/12500⟩,
  ⟨8, 21/10, 14881483/250000000000000, 168050989/78125000, 257749/100000⟩,
  ⟨8, 43/20, 52942463/1000000000000000, 22365737543/10000000000, 60169/25000⟩,
  ⟨8, 11/5, 43612361/1000000000000000, 22635555483/10000000000, 229267/100000⟩,
  ⟨8, 9/4, 36764793/1000000000000000, 22808513/10000000, 219713/100000⟩,
  ⟨8, 23/10, 30899101/1000000000000000, 22961118291/10000000000, 211277/100000⟩,
  ⟨8, 47/20, 25951523/1000000000000000, 11512709987/5000000000, 204051/100000⟩,
  ⟨8, 12/5, 22598633/1000000000000000, 2893370947/1250000000, 49343/25000⟩,
  ⟨8, 49/20, 3805933/200000000000000, 5796569757/2500000000, 191551/100000⟩,
  ⟨8, 5/2, 16752523/1000000000000000, 23321309669/10000000000, 37197/20000⟩,
  ⟨9, 5/4, 40130517/5000000000000, 342077769/200000000, 533/8⟩,
  ⟨9, 13/10, 1290907/400000000000, 17768638337/10000000000, 397671/10000⟩,
  ⟨9, 27/20, 4099533/2500000000000, 4564818433/2500000000, 267133/10000⟩,
  ⟨9, 7/5, 17108487/20000000000000, 146146687/78125000, 191697/10000⟩,
  ⟨9, 29/20, 24499031/50000000000000, 298118159/156250000, 145697/10000⟩,
  ⟨9, 3/2, 14178619/50000000000000, 19376265737/10000000000, 115443/10000⟩,
  ⟨9, 31/20, 275507/1562500000000, 2478891363/1250000000, 116357/12500⟩,
  ⟨9, 8/5, 11241387/100000000000000, 5007761877/2500000000, 156661/20000⟩,
  ⟨9, 33/20, 20063007/250000000000000, 10142691639/5000000000, 335447/50000⟩,
  ⟨9, 17/10, 5741767/100000000000000, 20574910347/10000000000, 291497/50000⟩,
  ⟨9, 7/4, 20128289/500000000000000, 2611896751/1250000000, 513211/100000⟩,
  ⟨9, 9/5, 28882533/1000000000000000, 21256913951/10000000000, 28563/6250⟩,
  ⟨9, 19/10, 15495159/1000000000000000, 5380522443/2500000000, 190553/50000⟩,
  ⟨9, 39/20, 5873131/500000000000000, 21630258913/10000000000, 88121/25000⟩,
  ⟨9, 2, 91018891/10000000000000000, 21705676763/10000000000, 328511/100000⟩,
  ⟨10, 13/10, 76037409/100000000000000, 3607454643/2000000000, 599053/10000⟩,
  ⟨10, 27/20, 17540881/50000000000000, 9185801171/5000000000, 393257/10000⟩,
  ⟨10, 7/5, 2211489/12500000000000, 18539150977/10000000000, 14033/500⟩,
  ⟨10, 29/20, 95898587/1000000000000000, 2385384623/1250000000, 201661/10000⟩,
  ⟨10, 3/2, 3228093/62500000000000, 9774741309/5000000000, 30571/2000⟩,
  ⟨10, 31/20, 14672083/500000000000000, 9967519749/5000000000, 24193/2000⟩,
  ⟨10, 8/5, 3396813/200000000000000, 5033558991/2500000000, 998157/100000⟩,
  ⟨10, 33/20, 11201377/1000000000000000, 20278278839/10000000000, 846133/100000⟩,
  ⟨10, 17/10, 9674059/1250000000000000, 2055088871/1000000000, 14461/2000⟩,
  ⟨10, 7/4, 27113103/5000000000000000, 2623032017/1250000000, 622071/100000⟩,
  ⟨10, 9/5, 19025531/5000000000000000, 106513251/50000000, 547481/100000⟩,
  ⟨10, 37/20, 26039483/10000000000000000, 10792592937/5000000000, 122143/25000⟩,
  ⟨10, 19/10, 9246119/5000000000000000, 2170744563/1000000000, 222033/50000⟩,
  ⟨10, 39/20, 1643379/1250000000000000, 21817982009/10000000000, 203549/50000⟩,
  ⟨10, 2, 24112419/25000000000000000, 4403716549/2000000000, 93597/25000⟩,
  ⟨11, 13/10, 18775393/100000000000000, 1820599467/1000000000, 909541/10000⟩,
  ⟨11, 27/20, 77356019/1000000000000000, 18518214951/10000000000, 2299/40⟩,
  ⟨11, 7/5, 32528373/1000000000000000, 9440256409/5000000000, 77103/2000⟩,
  ⟨11, 29/20, 16597763/1000000000000000, 19165471477/10000000000, 277079/10000⟩,
  ⟨11, 3/2, 3544027/400000000000000, 4906267809/2500000000, 20383/1000⟩,
  ⟨11, 31/20, 24153429/5000000000000000, 5012299689/2500000000, 156747/10000⟩,
  ⟨11, 8/5, 25766957/10000000000000000, 20295371707/10000000000, 63151/5000⟩,
  ⟨11, 33/20, 1559903/1000000000000000, 3194451/1562500, 13157/1250⟩,
  ⟨11, 17/10, 99258899/100000000000000000, 5156881801/2500000000, 891137/100000⟩,
  ⟨11, 7/4, 69033069/100000000000000000, 20881262613/10000000000, 763199/100000⟩,
  ⟨11, 9/5, 49444651/100000000000000000, 10692079099/5000000000, 81771/12500⟩,
  ⟨11, 37/20, 16645951/50000000000000000, 21714286439/10000000000, 575283/100000⟩,
  ⟨11, 19/10, 23006797/100000000000000000, 10944551589/5000000000, 516381/100000⟩,
  ⟨11, 39/20, 3970117/25000000000000000, 11006732483/5000000000, 29311/6250⟩,
  ⟨11, 2, 349287/3125000000000000, 2214751173/1000000000, 214551/50000⟩,
  ⟨12, 27/20, 17038991/1000000000000000, 18619112597/10000000000, 841509/10000⟩,
  ⟨12, 7/5, 16359687/2500000000000000, 19069147481/10000000000, 268269/5000⟩,
  ⟨12, 29/20, 7468691/2500000000000000, 9659199037/5000000000, 23519/625⟩,
  ⟨12, 3/2, 14920459/10000000000000000, 3925696631/2000000000, 136979/5000⟩,
  ⟨12, 31/20, 20247319/25000000000000000, 20129847811/10000000000, 101697/5000⟩,
  ⟨12, 8/5, 1666423/4000000000000000, 20517921747/10000000000, 158407/10000⟩,
  ⟨12, 33/20, 23539727/100000000000000000, 51745971/25000000, 129551/10000⟩,
  ⟨12, 17/10, 13497289/100000000000000000, 20887365361/10000000000, 108069/10000⟩,
  ⟨12, 7/4, 41628469/500000000000000000, 2106955733/1000000000, 918319/100000⟩,
  ⟨12, 9/5, 58834619/1000000000000000000, 21359415217/10000000000, 98391/12500⟩,
  ⟨12, 19/10, 6603227/250000000000000000, 11003184757/5000000000, 601663/100000⟩,
  ⟨12, 39/20, 17189689/1000000000000000000, 11073370819/5000000000, 541103/100000⟩,
  ⟨12, 2, 3043699/250000000000000000, 22431392199/10000000000, 487223/100000⟩,
  ⟨13, 7/5, 13183319/10000000000000000, 4797773433/2500000000, 30053/400⟩,
  ⟨13, 29/20, 53619083/100000000000000000, 19470729711/10000000000, 509341/10000⟩,
  ⟨13, 3/2, 22322801/100000000000000000, 9869934391/5000000000, 363221/10000⟩,
  ⟨13, 31/20, 11526271/100000000000000000, 801330371/400000000, 67349/2500⟩,
  ⟨13, 8/5, 61426379/1000000000000000000, 4102197943/2000000000, 20273/1000⟩,
  ⟨13, 33/20, 4256503/125000000000000000, 20818527907/10000000000, 160817/10000⟩,
  ⟨13, 17/10, 18584229/1000000000000000000, 841825757/400000000, 131667/10000⟩,
  ⟨13, 7/4, 2162047/200000000000000000, 21243271913/10000000000, 55123/5000⟩,
  ⟨13, 9/5, 3688789/500000000000000000, 21467756379/10000000000, 468941/50000⟩,
  ⟨13, 37/20, 49615599/10000000000000000000, 10925741909/5000000000, 400531/50000⟩,
  ⟨13, 19/10, 32630681/10000000000000000000, 276079709/125000000, 350907/50000⟩,
  ⟨13, 39/20, 208439/100000000000000000, 696851267/312500000, 311377/50000⟩,
  ⟨13, 2, 13665993/10000000000000000000, 4498368253/2000000000, 22351/4000⟩,
  ⟨14, 29/20, 2046743/20000000000000000, 152949579/78125000, 69119/1000⟩,
  ⟨14, 3/2, 40219827/1000000000000000000, 199085139/100000000, 475913/10000⟩,
  ⟨14, 31/20, 4577863/250000000000000000, 4039891/2000000, 69073/2000⟩,
  ⟨14, 8/5, 46628893/5000000000000000000, 1028234363/500000000, 64453/2500⟩,
  ⟨14, 33/20, 25405419/5000000000000000000, 20910978691/10000000000, 12493/625⟩,
  ⟨14, 17/10, 13062559/5000000000000000000, 21169092067/10000000000, 40161/2500⟩,
  ⟨14, 7/4, 6919337/5000000000000000000, 10714824879/5000000000, 32979/2500⟩,
  ⟨14, 9/5, 10554091/12500000000000000000, 21058949451/10000000000, 115897/10000⟩,
  ⟨14, 37/20, 28056083/50000000000000000000, 21848347409/10000000000, 23741/2500⟩,
  ⟨14, 19/10, 36520481/100000000000000000000, 22144100981/10000000000, 819239/100000⟩,
  ⟨14, 39/20, 22835769/100000000000000000000, 11193602997/5000000000, 143713/20000⟩,
  ⟨14, 2, 3915063/25000000000000000000, 22662033397/10000000000, 318051/50000⟩,
  ⟨15, 3/2, 33869219/5000000000000000000, 5007837727/2500000000, 625687/10000⟩,
  ⟨15, 31/20, 2664519/1000000000000000000, 4055381931/2000000000, 223507/5000⟩,
  ⟨15, 8/5, 195341/156250000000000000, 20594275589/10000000000, 4107/125⟩,
  ⟨15, 33/20, 17860689/25000000000000000000, 4191797851/2000000000, 62317/2500⟩,
  ⟨15, 17/10, 36768121/100000000000000000000, 21256130851/10000000000, 19631/1000⟩,
  ⟨15, 7/4, 18650547/100000000000000000000, 21497846837/10000000000, 31851/2000⟩,
  ⟨15, 9/5, 5729003/50000000000000000000, 10653517761/5000000000, 8564/625⟩,
  ⟨15, 37/20, 70782501/1000000000000000000000, 21464045447/10000000000, 14467/1250⟩,
  ⟨15, 19/10, 2203951/50000000000000000000, 2777782271/1250000000, 954393/100000⟩,
  ⟨15, 39/20, 26655793/1000000000000000000000, 22419149837/10000000000, 831949/100000⟩,
  ⟨15, 2, 17108261/1000000000000000000000, 11195264447/5000000000, 4652/625⟩,
  ⟨16, 3/2, 3025077/2500000000000000000, 20130787701/10000000000, 823371/10000⟩,
  ⟨16, 31/20, 23041101/50000000000000000000, 10219016307/5000000000, 22793/400⟩,
  ⟨16, 8/5, 8941619/50000000000000000000, 10164780911/5000000000, 108791/2500⟩,
  ⟨16, 33/20, 18570763/200000000000000000000, 20494514743/10000000000, 329027/10000⟩,
  ⟨16, 17/10, 56614567/1000000000000000000000, 20925119791/10000000000, 250837/10000⟩,
  ⟨16, 7/4, 2875391/100000000000000000000, 21461524027/10000000000, 97061/5000⟩,
  ⟨16, 9/5, 8289491/500000000000000000000, 859601607/400000000, 161309/10000⟩,
  ⟨16, 37/20, 11782751/1000000000000000000000, 10905913407/5000000000, 8346/625⟩,
  ⟨16, 19/10, 17839373/2000000000000000000000, 21981176583/10000000000, 4549/400⟩,
  ⟨16, 39/20, 33265003/5000000000000000000000, 446800227/200000000, 971037/100000⟩,
  ⟨16, 2, 12640873/2500000000000000000000, 22621631913/10000000000, 168539/20000⟩]

end Sdp.EsFft
