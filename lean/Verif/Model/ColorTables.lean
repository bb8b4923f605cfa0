import Mathlib.Data.Nat.Notation

/-! # The tables of `color_maps.hpp`

Every entry is given as an integer, in units of `10^-20`, which represents the decimal fractions of the source exactly. -/

namespace DRT.ColorTables

/-- color_maps.hpp:20, `plasma_r`. -/
def plasma_r : List ℕ := [
  18500126283629117000, 19111890441135620000, 19712864908128114000, 20304162335711550000, 20887268107458867000, 21463072331602523000, 22032157730150803000, 22595756057299310000,
  23155039796588678000, 23710641646603325000, 24262940495715968000, 24812510063567056000, 25359583439603345000, 25904738609849100000, 26447987886309154000, 26989810574057340000,
  27530438306819060000, 28069900692141886000, 28608641029403303000, 29146388222952780000, 29683511768078935000, 30219917764711020000, 30755938337468500000, 31291664864816615000,
  31826993831935324000, 32362257607539230000, 32897099654312370000, 33431870303843003000, 33966373680896456000, 34500780772620570000, 35034847407826647000, 35568741535297150000,
  36102581201779066000, 36636153410036030000, 37169632394652985000, 37702769647032860000, 38235794682038700000, 38768438207138256000, 39300628607590830000, 39832737167488130000,
  40364258179320030000, 40895431552409317000, 41426001622424247000, 41956239525771790000, 42485636164855030000, 43014417751614120000, 43542688192656870000, 44069994021340000000,
  44596644643576516000, 45122228710713624000, 45646976291997180000, 46170566545987850000, 46693100230709610000, 47214475738324385000, 47734584073946210000, 48253461632433253000,
  48770903283652060000, 49286905392912533000, 49801338714995985000, 50314126036222330000, 50825318285216510000, 51334621248343120000, 51842202605923950000, 52347785598221430000,
  52851434928778270000, 53353069565385760000, 53852447890018840000, 54349809547079630000, 54844810277749520000, 55337508759094870000, 55827665344057780000, 56315540621537340000,
  56800819007457590000, 57283339751381570000, 57763427443068160000, 58240767375467310000, 58715339840892290000, 59187012050960120000, 59656043676799730000, 60122018353104190000,
  60585121834123950000, 61045212638200150000, 61502252202469750000, 61956286160736230000, 62407198018121810000, 62855135803990210000, 63299892217938230000, 63741629630151140000,
  64180048097696660000, 64615368003097770000, 65047613576924300000, 65476511682179980000, 65902452566396040000, 66325165512238150000, 66744772911265370000, 67161080312513520000,
  67574296587567370000, 67984540579703710000, 68391595228606830000, 68795689496033440000, 69196528222365890000, 69594500422881880000, 69989414695832520000, 70381368632695720000,
  70770360761420780000, 71156486845731260000, 71539748747680070000, 71920031057636110000, 72297632321621840000, 72672448654707270000, 73044371734163660000, 73413775183339180000,
  73780374991884990000, 74144542440467530000, 74505873483501220000, 74864833465807720000, 75221047466411850000, 75574868054226500000, 75926290179744870000, 76275206039744560000,
  76621682537338800000, 76965829259551310000, 77307710789563100000, 77647138999640520000, 77984281952817520000, 78319206388546460000, 78651820912332810000, 78982289341753950000,
  79310514285231510000, 79636562618583020000, 79960345659689840000, 80282013109877280000, 80601591897463010000, 80918845120094910000, 81234139742469950000, 81547194102342680000,
  81858255331788490000, 82167054444810890000, 82473737655084640000, 82778226801889230000, 83080602598370330000, 83380913920251930000, 83678997787851020000, 83974897064215780000,
  84268544829415080000, 84560081736886590000, 84849348387108920000, 85136312731921830000, 85421028627526870000, 85703340352124950000, 85983483998963730000, 86261107248852580000,
  86536435791730340000, 86809231471088220000, 87079543689014180000, 87347437176702760000, 87612666410665310000, 87875357388940460000, 88135267717107050000, 88392616321489470000,
  88647071620261110000, 88898787469711450000, 89147717628605990000, 89393626847315020000, 89636640499597700000, 89876618852160940000, 90113484567979870000, 90347104624697830000,
  90577626243452910000, 90804813968663580000, 91028635271123630000, 91249099688210410000, 91466085517555170000, 91679606627059780000, 91889331354272450000, 92095422779048840000,
  92297816441695560000, 92496305878113380000, 92690988529665640000, 92881552683939100000, 93068293661428250000, 93250702293028020000, 93428972658335190000, 93602905428591020000,
  93772439727403860000, 93937709339734680000, 94098426619495580000, 94254566969972730000, 94405943106628020000, 94552713443824530000, 94694511556979220000, 94831361894098120000,
  94963295099233570000, 95090133876192040000, 95211936805072840000, 95328333261020160000, 95439578932127120000, 95545308858995110000, 95645642748931360000, 95740398037200950000,
  95829307783694930000, 95912524516586570000, 95989790458750520000, 96061247212761290000, 96126635556454520000, 96185876150612260000, 96238875557249710000, 96285591051268250000,
  96325944148453310000, 96359701743646710000, 96386869629559970000, 96407333066461800000, 96420889824573050000, 96427620505660950000, 96427222925307890000, 96419787345793720000,
  96405002411405760000, 96382850032241220000, 96353336838949920000, 96316145229318720000, 96271253877047700000, 96218669328880670000, 96158162566571050000, 96089434540227500000,
  96012344613974620000, 95927023758100700000, 95833344873558600000, 95731262360074950000, 95620623034259740000, 95501355802162420000, 95372976106301080000, 95235317249536790000,
  95088742769473690000, 94933371299631760000, 94768745104488590000, 94594067871962550000, 94410330022189700000, 94217800618000540000, 94014265870073710000, 93802098858481680000,
  93580008179945060000, 93348167237139760000, 93107207308393540000, 92856061866508130000, 92595944651499810000, 92327053647064000000, 92048168903804060000, 91761631466630370000,
  91467659096468130000, 91167001746107780000, 90860682645519280000, 90551227902914670000, 90242202982681550000, 89940800905656650000, 89655977005668090000, 89405831030295800000]

/-- color_maps.hpp:23, `plasma_g`. -/
def plasma_g : List ℕ := [
  0, 0, 0, 0, 0, 0, 0, 0,
  0, 0, 0, 0, 0, 0, 0, 0,
  0, 0, 0, 0, 0, 0, 0, 0,
  0, 0, 0, 0, 0, 0, 0, 0,
  0, 0, 0, 0, 0, 0, 0, 0,
  0, 0, 0, 0, 0, 0, 0, 0,
  0, 0, 0, 0, 0, 0, 0, 0,
  0, 0, 0, 0, 0, 0, 0, 0,
  0, 0, 0, 0, 0, 0, 0, 0,
  0, 0, 0, 0, 0, 0, 0, 0,
  0, 3874898278890354, 747192850694177600, 1527118517825052900, 2343520602677335800, 3197423156761071000, 4087712538541078000, 4941897732161648000,
  5737659183163574400, 6489209701289092000, 7205664723234939000, 7893485649247015000, 8557896376179144000, 9202175130904900000, 9829643543437619000, 10442077591051005000,
  11041573939018576000, 11629982277048792000, 12207972438632506000, 12777061405330994000, 13337789223781238000, 13891265519872940000, 14437902230001867000, 14978346343836335000,
  15513277880704496000, 16042886120342012000, 16567753940154910000, 17088110609685120000, 17604431343185956000, 18116754587975790000, 18625492836404750000, 19131016034079534000,
  19633283758483017000, 20132751808066945000, 20629365678022926000, 21123542314263571000, 21615177834848830000, 22104657452100646000, 22592119959006707000, 23077446982485766000,
  23561210642337616000, 24043047593352906000, 24523511752950322000, 25002237800122340000, 25479746355598837000, 25956029374277906000, 26431022207991034000, 26905132741009340000,
  27378188494252850000, 27850483541745347000, 28321834594018785000, 28792637941737553000, 29262694015300356000, 29732178680176990000, 30201349640843383000, 30670116750008550000,
  31138651344351800000, 31606852937383080000, 32074992912784330000, 32543070913268060000, 33011024027988417000, 33479211478472940000, 33947419772803830000, 34416014659469520000,
  34884780953632640000, 35353978915698650000, 35823491475297240000, 36293457844520105000, 36764121680975670000, 37235362236994290000, 37707332419103230000, 38179911504484987000,
  38653458271457190000, 39127741197062240000, 39603001123967030000, 40079369284363137000, 40556616454420560000, 41035098640519460000, 41514583932127690000, 41995530212234555000,
  42477599854360380000, 42960925503139700000, 43445842802883230000, 43932114433764410000, 44419993044472960000, 44909240889281350000, 45400214523708790000, 45892672174834210000,
  46386948406587364000, 46882971893384910000, 47380699937960450000, 47880391802811756000, 48381899597513830000, 48885280434945260000, 49390691873696740000, 49897959275489260000,
  50407421794110920000, 50918823947419890000, 51432429349395410000, 51948084136649900000, 52466051896957820000, 52986077414495900000, 53508426298675260000, 54032936683057150000,
  54559745795891550000, 55088991216038670000, 55620406473846320000, 56154265925622830000, 56690401051406660000, 57229191478364660000, 57770161093210200000, 58313652197828820000,
  58859704551937610000, 59408043649774160000, 59959051026693480000, 60512449581496990000, 61068421510900960000, 61626786653630430000, 62187688759233270000, 62751273563453600000,
  63317459701846610000, 63886232369741590000, 64457506055083360000, 65031370419618210000, 65607838743202900000, 66186856385372220000, 66768572519510270000, 67352793992300530000,
  67939718333427570000, 68529148979757730000, 69121388271900510000, 69716033117917220000, 70313236298117580000, 70913353775048080000, 71515878948949750000, 72121119285880610000,
  72728868838274800000, 73339438306278020000, 73952415403091350000, 74567957546406980000, 75186222212255120000, 75806996146259520000, 76430394441149840000, 77056403873234820000,
  77685142773208780000, 78316289550925120000, 78949904121048510000, 79586249804351670000, 80224801525619440000, 80865884989568940000, 81509579714784790000, 82155911413777890000,
  82804448591865290000, 83455320777543170000, 84108399621172710000, 84764258318704770000, 85422254671430490000, 86082054746186110000, 86744910933477130000, 87409370632162820000,
  88076183163766750000, 88745010875362730000, 89415622940054770000, 90088602372932400000, 90763105410621920000, 91439383212885430000, 92117609139646510000, 92797329975528120000,
  93477914391777150000, 94159658736444570000, 94842363098552880000, 95525112444359560000, 96207297274762990000, 96886618976509510000, 97561197938970100000, 98225357930478050000]

/-- color_maps.hpp:26, `plasma_b`. -/
def plasma_b : List ℕ := [
  53007344818321330000, 53524446035250810000, 54014968732582780000, 54482072743125170000, 54928610785969310000, 55356965738056360000, 55768861410147040000, 56166099648974790000,
  56550492392767690000, 56923140148281680000, 57285056201747640000, 57637029490997440000, 57979884379558950000, 58314298177605830000, 58640603474494280000, 58959487851513740000,
  59271232548277080000, 59576079065675190000, 59874485385146380000, 60166499774847430000, 60452371427742580000, 60732156475687140000, 61006028221602100000, 61274156052579250000,
  61536402246974190000, 61792901524891230000, 62043422392713810000, 62288293507187920000, 62527189804360600000, 62760131871127690000, 62987102422226810000, 63207859408055940000,
  63422558233201620000, 63630787971948550000, 63832654756010530000, 64027855321441750000, 64216287715470950000, 64397856949465530000, 64572309330845930000, 64739587665934880000,
  64899505384730480000, 65051843068729680000, 65196422975829390000, 65333117167565600000, 65461656412458610000, 65581874211794900000, 65693799619788000000, 65796972827803150000,
  65891346623186200000, 65976671973893120000, 66052891197723670000, 66119766002872180000, 66177214679458370000, 66224948773770350000, 66262942548230410000, 66290914880371200000,
  66308750955235480000, 66316458726321880000, 66313835041097000000, 66300680275298520000, 66277089082049210000, 66242871134156190000, 66198009683780870000, 66142426819409230000,
  66075992981744410000, 65998743500326270000, 65910559819028310000, 65811618011588610000, 65701966339509780000, 65581449348835690000, 65450228135230730000, 65308335682111400000,
  65156045478239800000, 64993220132894220000, 64820016971430780000, 64636722407763910000, 64443344136751590000, 64240180480250090000, 64027328334308330000, 63804996415544250000,
  63573471028578650000, 63332971967724260000, 63083739944479830000, 62826009616818550000, 62560212411990320000, 62286412961519410000, 62005051787304090000, 61716385069192470000,
  61420861530364380000, 61118707411098390000, 60810044503418990000, 60495630007317300000, 60175303894765950000, 59849830357459080000, 59519242665410450000, 59184110701774830000,
  58844650143862150000, 58501173597678900000, 58153955779033980000, 57803320127396950000, 57449745210167760000, 57093250689797900000, 56734418588845010000, 56373357674665990000,
  56010174630957710000, 55645455003668530000, 55279212092889200000, 54911731701996680000, 54543226805249300000, 54174084833598690000, 53804310326014050000, 53434008832940950000,
  53063668195043150000, 52693299239115340000, 52322988635413150000, 51952747557638710000, 51583063124833610000, 51213739965306400000, 50844982975250210000, 50476878993514000000,
  50109337472977100000, 49742746464864046000, 49377016285413927000, 49012332381262230000, 48648698934109440000, 48285922068624404000, 47924185046887885000, 47563500949823650000,
  47203851741702810000, 46845251862644650000, 46487781969832370000, 46131257192818080000, 45776057623504590000, 45421788462774554000, 45068557847021135000, 44716341969885650000,
  44364959499587110000, 44014585494792785000, 43665038594107897000, 43316392259011754000, 42968756513504070000, 42621737099556123000, 42275507747129093000, 41929886852490544000,
  41584947056189187000, 41240508787097160000, 40896742284625690000, 40553555434840500000, 40210654537005180000, 39868209081983490000, 39526040918192384000, 39184217071630130000,
  38842457298679345000, 38501129821254500000, 38159840245673277000, 37818595187087410000, 37477461745019225000, 37136257807629336000, 36795049364876287000, 36453653245776980000,
  36112235308247530000, 35770601202584773000, 35428651226270560000, 35086450022751575000, 34744014111882704000, 34401206951565483000, 34058041413685886000, 33714480107622696000,
  33370422048712710000, 33025867912310986000, 32680878069888290000, 32335261768909423000, 31989179322193145000, 31642542736448936000, 31295201716155624000, 30947360171764265000,
  30598704730811505000, 30249495229901420000, 29899634327018570000, 29549074588061000000, 29197919964809826000, 28845817867177614000, 28492969964810494000, 28139526496601874000,
  27785370723887430000, 27430383727935276000, 27074816383051880000, 26718454740444175000, 26361544643555180000, 26003562899498420000, 25644960361208870000, 25285703768193385000,
  24925763348723312000, 24565176619885470000, 24204016134332634000, 23842311536200755000, 23480037776482860000, 23117419840272618000, 22754413813760505000, 22390965714476324000,
  22027085167700760000, 21662943633800064000, 21298749726033284000, 20934668932625894000, 20570690502571830000, 20207065907463867000, 19843929204788230000, 19481481252537644000,
  19119869381163737000, 18759494102079383000, 18400288978976168000, 18042977645916020000, 17687797122612808000, 17334762525376426000, 16984714768059186000, 16637921636618158000,
  16295000971437262000, 15956346939328955000, 15622826644396326000, 15294946537452883000, 14973455824735152000, 14659372367800260000, 14353430779937900000, 14056449833552720000,
  13769124768037790000, 13493042200392190000, 13229401208376287000, 12979210354493500000, 12743980433391283000, 12524775464689872000, 12322300321471347000, 12137867908430083000,
  11973149121600749000, 11829215335620300000, 11706646197810774000, 11605402308057439000, 11527104051689083000, 11471851258263263000, 11437731754446762000, 11426165187847570000,
  11434747323584868000, 11461834028700860000, 11505417484570082000, 11561141583641374000, 11625593038842527000, 11692861877968180000, 11754606974768209000, 11802695488214923000,
  11824175235960144000, 11802059587857097000, 11712470175631184000, 11521829362238950000, 11179479561713918000, 10607343156231328000, 9668148446675398000, 8106876557047280000]

/-- color_maps.hpp:46, `viridis_r`. -/
def viridis_r : List ℕ := [
  28236455292901690000, 28442016331743475000, 28640872215228885000, 28832801827269444000, 29017937839961166000, 29196027851088960000, 29367256955683180000, 29531459295464830000,
  29688569907770910000, 29838643847762190000, 29981597062377513000, 30117306494743460000, 30245746164055680000, 30366959094670260000, 30480776466702680000, 30587269429216750000,
  30686354185634795000, 30778027844120340000, 30862249412113520000, 30939093682370890000, 31008405310436140000, 31070215475266590000, 31124517838619070000, 31171373003181660000,
  31210749532005316000, 31242642086007180000, 31267102574316064000, 31284284828449566000, 31293985716270956000, 31296475556800250000, 31291727628281410000, 31279806007725980000,
  31260796745034420000, 31234764225043480000, 31201878677549840000, 31162329410359380000, 31115984744015995000, 31063126386714590000, 31003859809087064000, 30938382493792904000,
  30866839387586120000, 30789302647936884000, 30705866995694800000, 30616963655061763000, 30522690650431570000, 30423090779204970000, 30318432730096756000, 30208910989145576000,
  30094727500640460000, 29976132132321154000, 29853340919581994000, 29726490390425825000, 29595755856435807000, 29461388059933750000, 29323538945301380000, 29182587047255370000,
  29038713994891300000, 28891953721819880000, 28742616289551665000, 28590907506551183000, 28436845691665213000, 28280885381705473000, 28123118105327793000, 27963820366948480000,
  27802936591656480000, 27640874852219066000, 27477620046950885000, 27313360700361930000, 27148307304837610000, 26982545321488427000, 26816261476513720000, 26649507924006577000,
  26482494588026595000, 26315265596752650000, 26147929070824300000, 25980689963015840000, 25813512670965090000, 25646548756713870000, 25479666350991237000, 25313154461533993000,
  25146893469049797000, 24980931862578432000, 24815451941163053000, 24650281919380035000, 24485543793334280000, 24321127505789647000, 24157208508670241000, 23993532100520137000,
  23830244481673896000, 23667266390977104000, 23504468776110826000, 23341840155293508000, 23179414987893965000, 23017061991847487000, 22854583666537880000, 22692179570327480000,
  22529505886604990000, 22366535734333398000, 22203317321082194000, 22039568222953204000, 21875347641486670000, 21710379387686735000, 21544640014275412000, 21378123676772580000,
  21210435581990783000, 21041654636306228000, 20871567151630570000, 20700265458437167000, 20527405770197550000, 20352973151672893000, 20176907507316538000, 19999051193019307000,
  19819420713951540000, 19637893240486903000, 19454390995867465000, 19268779830200470000, 19080969884502760000, 18891010648325610000, 18698822505587320000, 18504404737541283000,
  18307650380221172000, 18108751106392554000, 17907906991776300000, 17704851110868655000, 17499810635812427000, 17292715216746460000, 17084034495202932000, 16873518608371835000,
  16661789658301376000, 16448693755461796000, 16235010494692595000, 16020698325478930000, 15806264119618174000, 15592085037000353000, 15378524571480254000, 15166304622295707000,
  14955934468428786000, 14748163623723387000, 14543738134019324000, 14343467030926343000, 14148086657706913000, 13958716457678366000, 13776366739068555000, 13602091941109576000,
  13437265977205576000, 13283238318759788000, 13141083773044995000, 13012562239437234000, 12898908642655502000, 12801762810243703000, 12722558610408110000, 12663084317706338000,
  12624680080960696000, 12608994360406375000, 12617263740036105000, 12651108595901270000, 12711466919306777000, 12799581674473437000, 12916500542967113000, 13062688656598942000,
  13238792426640142000, 13445291415455660000, 13682278693871636000, 13949652044856853000, 14247497810778012000, 14575022774163957000, 14932184918451274000, 15317937677685770000,
  15731856380201292000, 16173071601073405000, 16640600246038467000, 17133854153234118000, 17651571973890343000, 18193005250850490000, 18757103131306010000, 19342964878541258000,
  19949918559250934000, 20576788697008380000, 21222937521669094000, 21887342785296000000, 22569701024092760000, 23268846876417870000, 23984379062888905000, 24715366801913152000,
  25461342821257693000, 26221888931032444000, 26996266615436965000, 27784141842066250000, 28584802620577040000, 29398231046836330000, 30223509543708790000, 31060441873710900000,
  31908719616908920000, 32767842481037307000, 33637707096175440000, 34517577009771040000, 35407653540748940000, 36307288905435614000, 37216392040758860000, 38134790504658210000,
  39061822412192630000, 39997682126238150000, 40941597344689007000, 41893809554291100000, 42853611297072447000, 43821148499483115000, 44796178864132080000, 45778139104040010000,
  46767297073952857000, 47762895833183777000, 48765199668971230000, 49773367432610355000, 50787502194325140000, 51807524948624310000, 52832583217518210000, 53863082759861380000,
  54898045800218700000, 55937883769023790000, 56981742767056440000, 58029455277240390000, 59081163832162480000, 60135808403975120000, 61193709063149970000, 62254015693537710000,
  63316828811728520000, 64381298849128030000, 65447281518225150000, 66514618688476770000, 67582571944135550000, 68651152659301260000, 69719414344392180000, 70787481750568540000,
  71854393213569310000, 72920399956946380000, 73984333133149750000, 75046256678730180000, 76105949401426850000, 77162344212456480000, 78215786370187530000, 79265334905776260000,
  80311016706485370000, 81352000003675770000, 82388149588215380000, 83419531898449130000, 84445222507651540000, 85465556159494850000, 86479601274896540000, 87487694401753870000,
  88488594744421410000, 89482697272304320000, 90470252957902830000, 91450576998802210000, 92423973199197760000, 93389858880123710000, 94348643853444090000, 95299945329161540000]

/-- color_maps.hpp:49, `viridis_g`. -/
def viridis_g : List ℕ := [
  0, 0, 0, 0, 265487444572820020, 792757444184003100, 1352370134044476700, 1944692837367540000,
  2570927284302236200, 3232004345340847000, 3928498921236845500, 4626360509301145000, 5292448251262403000, 5934767938757077400, 6557677507336810000, 7164698633434458000,
  7758748304703458000, 8341786651802360000, 8915477951604339000, 9481086300337191000, 10039934660784217000, 10592544707225837000, 11139899500725700000, 11682684097453058000,
  12221105850499253000, 12756000041340385000, 13287171481892050000, 13815390993203355000, 14340641874567140000, 14863302233253345000, 15383324394186293000, 15900829222938730000,
  16416130934378315000, 16929153088387608000, 17439996402117275000, 17948560856731854000, 18455163834592220000, 18959586894035800000, 19461776801237182000, 19962012298531123000,
  20459957100719467000, 20955888696372615000, 21449483201644065000, 21941001549407180000, 22430118261968157000, 22916966474571626000, 23401591007807610000, 23883855539609794000,
  24363810897601756000, 24841118674175394000, 25316239902407170000, 25788739763291640000, 26258744930569260000, 26726378849777516000, 27191415168129185000, 27653989400666285000,
  28113768475292045000, 28571303833310896000, 29026061879591203000, 29478258938071067000, 29928022171802540000, 30375224020966846000, 30819892495661744000, 31261906075426080000,
  31701494564326990000, 32138541450034700000, 32573162544170390000, 33005474252531270000, 33435255798902290000, 33862832893130074000, 34287990016232820000, 34710848826302004000,
  35131500140549954000, 35549953234348840000, 35966318791293280000, 36380486101494103000, 36792673591505964000, 37202777925879210000, 37611009244891660000, 38017368715240520000,
  38421960963647900000, 38824688636699420000, 39225657410893083000, 39625072158190940000, 40022836834946646000, 40419159051679776000, 40813938952902734000, 41207382228622860000,
  41599392773534455000, 41990177352141406000, 42379736554162750000, 42768077962221346000, 43155402955947875000, 43541515205810610000, 43926824097667160000, 44311029176723954000,
  44694438511247650000, 45077047699087197000, 45458770680091215000, 45839902582150930000, 46220255515372030000, 46600127747491800000, 46979327601523685000, 47357953606653420000,
  47736312483432980000, 48114008444557260000, 48491543980046187000, 48868623741468650000, 49245445289710926000, 49621921612301870000, 49998151568117394000, 50374332071878620000,
  50750175769624000000, 51126075239343850000, 51501643072303790000, 51877275140824030000, 52252782204510400000, 52628262021181150000, 53003710545075270000, 53379141920179830000,
  53754649359262170000, 54130143114829890000, 54505610952489250000, 54881171875141250000, 55256617687723550000, 55632350817020550000, 56007975795400710000, 56383690458360910000,
  56759401027528020000, 57135203404932270000, 57511003697769620000, 57886795969729270000, 58262589595273320000, 58638280976194450000, 59014066743058010000, 59389757368525200000,
  59765441942344400000, 60140932406530620000, 60516416242695740000, 60891603956074210000, 61266592991372290000, 61641579260200560000, 62016168865539190000, 62390654516185460000,
  62764642557641560000, 63138423852030570000, 63511810734438430000, 63884694156656820000, 64257269315916810000, 64629144636690780000, 65000712471718840000, 65371477889022240000,
  65741832477149320000, 66111283361416370000, 66480127258442350000, 66848152674841320000, 67215375308703520000, 67581777194354360000, 67947069899160380000, 68311541759216780000,
  68674903154716130000, 69037146301440000000, 69398360826500250000, 69758261714875580000, 70117029984424220000, 70474281971918800000, 70830297257942110000, 71184792891194950000,
  71537858877389570000, 71889381197083880000, 72239178682348610000, 72587428393434670000, 72933751751271070000, 73278524108079620000, 73621163916553830000, 73961961442618820000,
  74300898835861350000, 74637600052504650000, 74972337600412330000, 75304736949832220000, 75634966864615880000, 75962856808006110000, 76288370015186820000, 76611339551363930000,
  76931846685210160000, 77249870146537180000, 77565144997189660000, 77877831439506070000, 78187567413136980000, 78494608589134470000, 78798595676296430000, 79099605292550570000,
  79397712944970290000, 79692560900920270000, 79984401328400180000, 80272881021583180000, 80558246359489000000, 80840049484089000000, 81118461303020130000, 81393449469620040000,
  81664872055959670000, 81932765033928560000, 82196990717113650000, 82457479576046730000, 82714301022448190000, 82967215882049280000, 83216286646032560000, 83461486036832720000,
  83702836184784550000, 83940112741516280000, 84173434791048050000, 84402580664452980000, 84627709864131100000, 84848876930851250000, 85065866937437210000, 85278688840510590000,
  85487433489488820000, 85692105840300330000, 85892600015437680000, 86088967272702540000, 86281356380602360000, 86469667146902550000, 86653995114233250000, 86834244538684250000,
  87010708247734190000, 87183294996650330000, 87352049198381950000, 87517213611187940000, 87678701959068210000, 87836798173373920000, 87991420357249450000, 88142848269537800000,
  88291205574258200000, 88436566623929440000, 88579059194696890000, 88719021514087680000, 88856387197230120000, 88991488928945380000, 89124495793010150000, 89255540871939030000,
  89384892581696440000, 89512685876992250000, 89639155331782930000, 89764533793798640000, 89888958537658660000, 90012593434935430000, 90135778436553040000, 90258576107127350000,
  90381528684301800000, 90504465598206600000, 90627820525634430000, 90751530583868680000, 90875960650412070000, 91001147918434700000, 91127256418972050000, 91254523282900990000]

/-- color_maps.hpp:52, `viridis_b`. -/
def viridis_b : List ℕ := [
  33101019401180550000, 33703442738374480000, 34299986027156143000, 34890142467908250000, 35473811977790560000, 36050896285920380000, 36621086874678960000, 37184193824445494000,
  37740260454932900000, 38288925650020894000, 38829907434247934000, 39363381249817775000, 39888773777233144000, 40406251348648770000, 40915450097583880000, 41416200220874940000,
  41908526939985500000, 42391976117874690000, 42866795312638770000, 43332440286164786000, 43789047254118510000, 44236283765062680000, 44674164765622000000, 45102599429604956000,
  45521366881321973000, 45930580962347606000, 46329932297316530000, 46719523432267124000, 47099055427042910000, 47468820911475270000, 47828532474775726000, 48178183314421624000,
  48517960308495270000, 48847588346394805000, 49167336693750380000, 49477142727650020000, 49777062332509520000, 50067044696056630000, 50347366730898390000, 50617997013057940000,
  50878997315987930000, 51130701730320730000, 51372881833526300000, 51606062058201030000, 51830024658787320000, 52045229715624500000, 52251630298368380000, 52449521012822860000,
  52639104525415710000, 52820485351230680000, 52994055820992760000, 53159729181791680000, 53317850304752490000, 53468759496631660000, 53612478928989740000, 53749384543486370000,
  53879607665011530000, 54003514190121580000, 54121043154639700000, 54232727673965950000, 54338594951993810000, 54438991598642410000, 54534070908926040000, 54624085161715860000,
  54709281023835640000, 54789816110116820000, 54865912850707450000, 54937690384368120000, 55005412900651280000, 55069315987677900000, 55129567894006590000, 55186199932063750000,
  55239583845055450000, 55289835163541580000, 55337066705474600000, 55381554941730540000, 55423322920914590000, 55462449077836470000, 55499154504483650000, 55533519987907930000,
  55565764609459910000, 55595871535821120000, 55623949609107250000, 55650205919032720000, 55674626216157900000, 55697222907780420000, 55718185068019700000, 55737523056361250000,
  55755327119898510000, 55771601287236640000, 55786349921212220000, 55799664357914590000, 55811551420031470000, 55822105480621310000, 55831128636506750000, 55838818530887690000,
  55845074781706520000, 55849999991853360000, 55853389086157320000, 55855444150941050000, 55855962470992630000, 55854942967822250000, 55852385978285090000, 55848290932000940000,
  55842452590108970000, 55834875080891930000, 55825450747315910000, 55814285598067870000, 55801171609165310000, 55786013430297620000, 55768706307208520000, 55749344624322630000,
  55727635814596990000, 55703768113617090000, 55677351445156590000, 55648369527834720000, 55616735623358200000, 55582340638973720000, 55545074407234780000, 55504851626974860000,
  55461450213434570000, 55414890117134850000, 55365148626397090000, 55311944146359930000, 55255165026153030000, 55194690566858200000, 55130551886017560000, 55062311208628020000,
  54990202603121230000, 54913784664445210000, 54833296046859230000, 54748291477390820000, 54658912034019180000, 54564833181428060000, 54466026643718120000, 54362338319963010000,
  54253714430113180000, 54139905115802280000, 54021051751684920000, 53896911207940250000, 53767248080990550000, 53632024164855670000, 53491206392999490000, 53344617757903920000,
  53192231533512610000, 53033965093090620000, 52869592832524600000, 52699073426783390000, 52522356968601590000, 52339329299270630000, 52149789270233760000, 51953833647550800000,
  51751253458756670000, 51542051237239170000, 51326065949149640000, 51103240551767500000, 50873476669997950000, 50636756572017240000, 50393095360834890000, 50142157663432670000,
  49884168959711156000, 49618857026917080000, 49346247180692600000, 49066268626229187000, 48778873213754487000, 48483897470665890000, 48181384166285274000, 47871379185797663000,
  47553694385693240000, 47228240571384420000, 46895172451554185000, 46554310052412390000, 46205513288486627000, 45848792117067955000, 45484323921432873000, 45111796445512237000,
  44731304660604426000, 44342928507869660000, 43946350385739730000, 43541759430735040000, 43128829183503475000, 42707853717913047000, 42278601890433660000, 41841272272739740000,
  41395732876465930000, 40941845760197537000, 40479818880388174000, 40009286162040190000, 39530360418334750000, 39042968981612000000, 38547332480178070000, 38043291336294370000,
  37530572247730154000, 37009710866522050000, 36480084030717680000, 35942126510781447000, 35395509578522500000, 34840257787705900000, 34276376823431510000, 33703761426463510000,
  33122632945843844000, 32532725843019283000, 31934257183812360000, 31327047427719934000, 30711089679069037000, 30086448168965700000, 29452945945838050000, 28810666713708730000,
  28159459808118210000, 27499396246121266000, 26830176203526950000, 26152376869487510000, 25465611437556240000, 24769889915726157000, 24065414755310766000, 23351750058916276000,
  22629568729131472000, 21898246061294346000, 21158392883280225000, 20409796939815190000, 19652278866190287000, 18886521134133236000, 18112129150122600000, 17329867401713940000,
  16539484611862115000, 15741903013394760000, 14937219444590882000, 14125841334077730000, 13309191286806318000, 12487703987957810000, 11663311070005217000, 10837392920767788000,
  10012807215776806000, 9192536612477004000, 8380928749785493000, 7583905286235423000, 6809007221521910000, 6066995495444857000, 5371196587603636000, 4740111784051672500,
  4195435979844082000, 3764562984062277000, 3485264611800479400, 3364270057139693400, 3404549830802717400, 3608585889555883400, 3978910711211607000, 4495402504133204000,
  5123011464126393000, 5838119124087505000, 6620564078749713000, 7453488746258119000, 8325100208407330000, 9225150797640028000, 10147371721450577000, 11085876909361342000]

/-- color_maps.hpp:72, `inferno_r`. -/
def inferno_r : List ℕ := [
  281089094326535700, 401984743989266300, 553592753551017040, 735227523837594200, 946315780818237700, 1187516425529046000, 1459882064653068700, 1763635897430620000,
  2101796809093933400, 2474393539914235000, 2883780411707252000, 3332624719034210600, 3821642380815325000, 4343097106003717500, 4869376377787097000, 5400341174839569000,
  5937446015473203000, 6482608437087267000, 7034982700960049000, 7595041067967650000, 8163782650304269000, 8742545856288386000, 9331557740511914000, 9930765162558797000,
  10540226242431405000, 11160571005993528000, 11791676181366911000, 12433690815307291000, 13086179402733306000, 13748923050603107000, 14420943125208832000, 15101543272096760000,
  15789734883362955000, 16483784305323400000, 17182717668293970000, 17884663206387360000, 18588393100362538000, 19291386085475296000, 19992220593124482000, 20689679435120250000,
  21382118808651823000, 22068623935476173000, 22748122267063480000, 23420361150779462000, 24084627534795444000, 24740960498881281000, 25389243988976720000, 26029642526335234000,
  26662827027907290000, 27288818360123680000, 27908298438355970000, 28521514447287266000, 29129058728233680000, 29731341505807735000, 30328762487316085000, 30922074689328993000,
  31511471963992240000, 32097639646999010000, 32680654953464410000, 33261022038705007000, 33839282001375290000, 34415378701257920000, 34989889182711004000, 35562785044944550000,
  36134659054181420000, 36705348217686706000, 37275256708537490000, 37844680040449147000, 38413553297820660000, 38982292282335720000, 39550648469615630000, 40118951085798793000,
  40687280017870725000, 41255616595560770000, 41824395695463580000, 42393331361558230000, 42962740387773285000, 43532417357269360000, 44102749087057125000, 44673366859296220000,
  45244638328397074000, 45816295196030640000, 46388577425772487000, 46961515200714526000, 47534818255053085000, 48108952583913750000, 48683545655951826000, 49258791046276723000,
  49834473894739990000, 50410746315138990000, 50987655965633650000, 51564902930255260000, 52142676914044870000, 52720867597753920000, 53299480649181800000, 53878414426028050000,
  54457521623747140000, 55037141179468200000, 55616770707698730000, 56196612892568510000, 56776462898761700000, 57356519144972920000, 57936384228065200000, 58516017827148460000,
  59095749139602680000, 59674984292886510000, 60254020319134550000, 60832467222358790000, 61410617667480720000, 61987880257019620000, 62564501957473120000, 63140527606270600000,
  63715367158779420000, 64289502576114730000, 64862250370230930000, 65434002378122380000, 66004272200684400000, 66573098548532770000, 67140433754183910000, 67705891593824790000,
  68269750177067380000, 68831527526991300000, 69391309364856120000, 69948801892685260000, 70503857904367940000, 71056610601229550000, 71606683621130270000, 72153955513116590000,
  72698244820318750000, 73239624988829490000, 73777623256048130000, 74312404831432920000, 74843503061130720000, 75370943012370000000, 75894657009040830000, 76414275729483420000,
  76929857397782850000, 77441036089949400000, 77947868982940860000, 78449896142767300000, 78947232276336350000, 79439709580455690000, 79926960285775500000, 80409131791259350000,
  80885768561497340000, 81356911556810370000, 81822305241532320000, 82281870306809420000, 82735609019639270000, 83183081055033140000, 83624410822204490000, 84059159920510200000,
  84487542188300350000, 84909228208928870000, 85324122304728610000, 85732216662338940000, 86133190228969030000, 86527139620715470000, 86913855766428520000, 87293321231419580000,
  87665335175430500000, 88029782006385660000, 88386843500975580000, 88736028251484270000, 89077698415226500000, 89411477452918790000, 89737418525184610000, 90055446306886000000,
  90365435503779230000, 90667453952617390000, 90961333615415710000, 91247216008061100000, 91524747346421130000, 91794157583046300000, 92055300266008310000, 92308235021643080000,
  92552815831429970000, 92789008850673940000, 93016827352116480000, 93236343234922050000, 93447365087450510000, 93649875054736710000, 93844067975636240000, 94029638756102000000,
  94206733423488120000, 94375283599357210000, 94535300864883920000, 94686759266359200000, 94829576914291910000, 94963819786475620000, 95089416889834550000, 95206301538027060000,
  95314591511714610000, 95414131091741160000, 95504969778015470000, 95586959650528760000, 95660336611626730000, 95724769315702650000, 95780468479228290000, 95827255318969480000,
  95865199417803330000, 95894323592934070000, 95914520810629580000, 95925701952862640000, 95927964736970790000, 95921322453523310000, 95905572128656520000, 95880938946251460000,
  95847217534868680000, 95804534421606420000, 95752786921082860000, 95692013664765260000, 95622222088975010000, 95543512765428370000, 95455850223681800000, 95359012489533970000,
  95253379553317330000, 95138944996472920000, 95015793948410250000, 94884153171420220000, 94744133450420110000, 94595966334309010000, 94439840721664000000, 94276210296567250000,
  94104969947156790000, 93926407619413370000, 93741584070510860000, 93551086185694600000, 93355945493017180000, 93156306996942580000, 92952959565362400000, 92748311389292330000,
  92544080666153400000, 92340333282239880000, 92140947357484710000, 91949091792959340000, 91765684167509630000, 91596956441290540000, 91446040354230470000, 91318592603146980000,
  91220230051931070000, 91157127077919500000, 91135896106170110000, 91162684165770790000, 91243528772632240000, 91382800450631910000, 91584012680120590000, 91848120969380350000,
  92174997693579520000, 92562472519033290000, 93007249184881740000, 93505290022375000000, 94052096510980920000, 94642916245223840000, 95273699515448250000, 95939950734328980000]

/-- color_maps.hpp:75, `inferno_g`. -/
def inferno_g : List ℕ := [
  23971464598377526, 97821365279544980, 187858036593671360, 292859386651440000, 412202298741201700, 544392003850478000, 688298922973579000, 843215081596544700,
  1006582661251724900, 1178415859741329500, 1356688910804465900, 1539625929183560500, 1726832401238201400, 1915497115064958300, 2104088811842353600, 2291932904231331500,
  2476765342644406000, 2654913857103516700, 2826358681647735000, 2988842186530463500, 3140401564457008000, 3277327931516754000, 3397915440954199500, 3500729674713693600,
  3583646650101640000, 3644452450798945500, 3681366238931061000, 3692755679726384500, 3677382512840665000, 3634600703617963000, 3564202294027662000, 3466706179260893000,
  3343446973536863500, 3196480331842619500, 3028588882044505600, 2842845910025596600, 2643118919806025300, 2434997053816217300, 2223366886218203000, 2013004811620711800,
  1808594826487990000, 1614765042316278200, 1435553480544261500, 1274201334522470600, 1133528433999309500, 1015735838738679000, 922675985111490500, 854893129141553500,
  812889690971723400, 796777080577266000, 806252119961816200, 841144434064802300, 900696229306693700, 984618209448657000, 1091442588493423500, 1220429560529085800,
  1370467721899641700, 1540733507554501200, 1730246062037167300, 1938047884522844600, 2163345073218825600, 2405257429046037800, 2662930883000861000, 2935525614844373000,
  3222441261149447000, 3523065438609230400, 3836576069038869600, 4159569733823428000, 4478862119619544000, 4794477857573542000, 5106327563237704000, 5414611240426609600,
  5719222228379535600, 6019993068738608400, 6317128301685845000, 6610722021585969000, 6900863885365052000, 7187617069246041000, 7471304329299239000, 7751806407380799000,
  8029430493651149000, 8304144488312268000, 8576376530326199000, 8846085367401646000, 9113464993118847000, 9378748211627672000, 9641864471026837000, 9903140399175714000,
  10162749270153268000, 10420806397082313000, 10677546051510425000, 10933113121381896000, 11187572305488994000, 11441057366051116000, 11693958778828983000, 11946279417314834000,
  12198117471380196000, 12449887198815604000, 12701492382448120000, 12953294280559793000, 13205398312269750000, 13457944321120008000, 13711144234826717000, 13965174564712500000,
  14220219189728364000, 14476378100450787000, 14733996311413705000, 14993155878890290000, 15253988593803772000, 15516795297374705000, 15781633943679765000, 16048786021517725000,
  16318436257638128000, 16590822465679897000, 16865910560313505000, 17144146614273220000, 17425592860145330000, 17710424966773963000, 17999021875185295000, 18291227341615413000,
  18587606804084822000, 18888000215377920000, 19192974046452435000, 19502263596715320000, 19816353086298166000, 20135422039004170000, 20459503779649418000, 20788868051000070000,
  21123646007206010000, 21464109358472333000, 21810179955417047000, 22162240347649026000, 22520204162673113000, 22884471086565640000, 23255131794382106000, 23632095843046075000,
  24015863799868115000, 24406133999228090000, 24803310206792561000, 25207289596277370000, 25618381316580396000, 26036483531762183000, 26461798520952310000, 26894337006009095000,
  27333985604236920000, 27781173193668590000, 28235575148064224000, 28697306124361316000, 29166492383845930000, 29643104227723560000, 30127082282027723000, 30618391405312900000,
  31117184478578935000, 31623212938579265000, 32136508434799443000, 32657109446747970000, 33184860342904370000, 33719833283248070000, 34261659118859370000, 34810624963200010000,
  35366353385309630000, 35928893416112950000, 36498292592773490000, 37074069016469670000, 37656622385933070000, 38245257619441930000, 38840385588093607000, 39441505037110160000,
  40048674477966030000, 40661853375692680000, 41280736996911280000, 41905443766337100000, 42535460695069144000, 43171113773754055000, 43811882158117170000, 44457832435590120000,
  45109035089112254000, 45764961725903447000, 46425849899031140000, 47091266158595096000, 47761353176532470000, 48435772276010950000, 49114670215186446000, 49797703655884670000,
  50484746570573220000, 51176079497282110000, 51871050103759030000, 52570015891789190000, 53272521594888060000, 53978827973327740000, 54688474699300040000, 55401443035887700000,
  56118017497678170000, 56837633420185640000, 57560557641195800000, 58286322096332620000, 59015297839336340000, 59746911787712730000, 60481451659478900000, 61218802605214450000,
  61958690326939650000, 62701390693756420000, 63446323040376710000, 64193867571681540000, 64943641254270670000, 65695632546971200000, 66450133508373410000, 67206455078412660000,
  67964981742040010000, 68725324483274700000, 69487667277516130000, 70251618727120790000, 71017269579619900000, 71784710845622860000, 72553447409899050000, 73323867588722270000,
  74095472797415540000, 74868248182497150000, 75641995764605900000, 76416503506004460000, 77191961646457310000, 77967666108088260000, 78743902795210420000, 79520065333200730000,
  80296439116827940000, 81072314220332020000, 81847574582609930000, 82621798866234260000, 83394275201544640000, 84165280048154120000, 84933896523265700000, 85699489631807990000,
  86461044228305940000, 87218615398595480000, 87970585789243040000, 88715611458035240000, 89453637553026880000, 90182051556401270000, 90899976671718160000, 91605206720971880000,
  92296158789725410000, 92970549086480200000, 93626630453733910000, 94262653319916120000, 94876902937919920000, 95468715309083440000, 96037241149509570000, 96583219941021540000,
  97107057566217440000, 97610263544662120000, 98094613335247480000, 98561885642385830000, 99014035643260760000, 99452584212740800000, 99879606560480640000, 100000000000000000000]

/-- color_maps.hpp:78, `inferno_b`. -/
def inferno_b : List ℕ := [
  1398497556451240400, 1872250664210874500, 2443331614196949500, 3115104180733254000, 3885690760774684000, 4716007356275465000, 5549261030453648400, 6383358056387142000,
  7226064067376634000, 8070837752145016000, 8921981513295862000, 9780925050843240000, 10644014290558229000, 11516213940852654000, 12396774807241909000, 13283301770235548000,
  14177532141983168000, 15083030852258322000, 15995532205231558000, 16914872242514997000, 17841319040234860000, 18776813322972750000, 19719580690248006000, 20667954373613356000,
  21620646706666896000, 22577039634735840000, 23535339483156836000, 24494025693525362000, 25450501190842256000, 26402840142687645000, 27347646665625286000, 28281846989076903000,
  29202361159436790000, 30105001195030220000, 30986709416191760000, 31843622115540404000, 32672754555596290000, 33470171605932670000, 34233267279975490000, 34960418789627490000,
  35649542121528693000, 36300283986038070000, 36911910476040140000, 37485029273274384000, 38020056262511853000, 38518338276035313000, 38981400161530266000, 39410608226931626000,
  39807991569191936000, 40175255435196344000, 40514192766486180000, 40826542553915300000, 41114096865607670000, 41378731985243317000, 41621716948105120000, 41844684685950084000,
  42048827434753094000, 42235454420460910000, 42405678029985167000, 42560650168084335000, 42701212055443627000, 42828294053430277000, 42942666537010400000, 43044874030607070000,
  43135872706159983000, 43215919315134893000, 43285640046483476000, 43345553495652556000, 43396029607797010000, 43437397708144554000, 43470038094178065000, 43494369314594356000,
  43510481430317190000, 43518581888017790000, 43518873123257650000, 43511454396462584000, 43496624880705104000, 43474392475280740000, 43444847041511450000, 43408205359254054000,
  43364348470733133000, 43313601580946380000, 43256053883160600000, 43191489583889820000, 43120041645865230000, 43041574805262350000, 42956330567301120000, 42864265143064880000,
  42765327068757700000, 42659593657044653000, 42547036940392840000, 42427714089046764000, 42301465293721136000, 42168356166547750000, 42028317960721660000, 41881524685476880000,
  41727840352516704000, 41567325382277020000, 41399861022013170000, 41225462782135130000, 41044220528298290000, 40856042295519860000, 40661024958520675000, 40459220659962680000,
  40250477966221880000, 40034801878324990000, 39812183719525346000, 39582837342006344000, 39346646772201060000, 39103731966212760000, 38854134270739060000, 38597788838607690000,
  38334824356115640000, 38065108901903250000, 37788779133407800000, 37505894495304953000, 37216699339894554000, 36921021595466685000, 36618983450738570000, 36310838568945610000,
  35996429275993660000, 35676015551765490000, 35349531577617316000, 35017045249611330000, 34678770219935770000, 34334618435442704000, 33985062889286870000, 33629822944329000000,
  33269377508193650000, 32903540290632205000, 32532695063929830000, 32156649022449457000, 31775890499434717000, 31390318773099700000, 30999930071976417000, 30605118504451645000,
  30205775317511685000, 29802199875429186000, 29394378137248420000, 28982709790037110000, 28567083041976800000, 28147682342879060000, 27724708700682010000, 27298138029626545000,
  26868174980612220000, 26434984232170520000, 25998575171171820000, 25559221349785970000, 25116692927874856000, 24671393625869525000, 24223179777885400000, 23772254243554203000,
  23318564961915333000, 22862315936817423000, 22403563620206673000, 21942058959605015000, 21478100990947208000, 21011417480224504000, 20542406206466130000, 20070581716761537000,
  19596334251627617000, 19119290796426600000, 18639467968336287000, 18156845817161688000, 17671201671816983000, 17182706869762476000, 16690816145867365000, 16195681111767923000,
  15697061628964482000, 15194600566546660000, 14688407634155806000, 14177960453650070000, 13663131137587867000, 13143638978707110000, 12619301932742968000, 12089804008534802000,
  11554564373326445000, 11013577030361851000, 10466202583588793000, 9912286212434965000, 9351101566047318000, 8782667750990647000, 8206088279212811000, 7621335449370956000,
  7027747421356231000, 6424712981979491000, 5812067587313310000, 5189145509095391000, 4556084013205603000, 3911247581385835600, 3290365760521890000, 2723224588536151500,
  2211629990384051500, 1757722649071082000, 1363671033859730600, 1031869131770768100, 764756523666596800, 565364525789302600, 436519175345100600, 381535888760292100,
  403840373322879600, 507259657250953000, 695773047376115500, 973686391878558400, 1345664060290972800, 1816672798060214500, 2392137587279867200, 3077795215314972300,
  3879846557918924000, 4754586688050347500, 5639000971583722000, 6532722715811143000, 7436297745193562000, 8350080196415607000, 9274251876146974000, 10209834873587620000,
  11157046121752170000, 12117109069150736000, 13090499817983560000, 14078130910755318000, 15081436111263802000, 16100576302194860000, 17137304382242480000, 18192158708279701000,
  19266999933666065000, 20362775766847008000, 21480475650403570000, 22621716723273466000, 23787212746051245000, 24979536427958570000, 26200165823070570000, 27450125124431674000,
  28729978853917604000, 30044283530868937000, 31392195038919846000, 32774418603834880000, 34196084494650175000, 35653516048576150000, 37149753959115556000, 38682824854613050000,
  40251902826987024000, 41853541532870010000, 43483463317788684000, 45136494631341880000, 46803854591735380000, 48478769070125344000, 50150220403677200000, 51812066985434180000,
  53453930447629950000, 55070279275282400000, 56659544084479420000, 58210261046892230000, 59726962632744800000, 61208014606239300000, 62653504349449420000, 64062647847933540000]

/-- color_maps.hpp:98, `blackbody_r`. -/
def blackbody_r : List ℕ := [
  0, 1249856755490000000, 2499713510980000000, 3749570266470000000, 4925810881390000000, 5941659387210000000, 6844718775410000000, 7663630898990000000,
  8416787876530000000, 9116808551160000000, 9772782947890000000, 10391508769400000000, 10978222609900000000, 11537057005200000000, 12071339149600000000, 12583793438600000000,
  13085458464500000000, 13604190193000000000, 14140417663000000000, 14692740438400000000, 15259873072100000000, 15838963530600000000, 16422259923400000000, 17008901645600000000,
  17598792054500000000, 18191842184300000000, 18787969889900000000, 19387099103000000000, 19989159185400000000, 20594084362800000000, 21201813230200000000, 21812288317800000000,
  22425455708600000000, 23041264701700000000, 23659667514400000000, 24280619018400000000, 24904076505400000000, 25529999478400000000, 26158349466000000000, 26789089855700000000,
  27422185745400000000, 28057603808800000000, 28695312176100000000, 29335280324800000000, 29977478981700000000, 30621880034800000000, 31268456452500000000, 31917113491200000000,
  32567691454500000000, 33220179104400000000, 33874565084000000000, 34530837961100000000, 35188986250500000000, 35848998434400000000, 36510862979900000000, 37174568354500000000,
  37840103040300000000, 38507455546200000000, 39176614418500000000, 39847568251100000000, 40520305693400000000, 41194815457700000000, 41871086326400000000, 42549107156900000000,
  43228866887100000000, 43910354539400000000, 44593559224600000000, 45278470144900000000, 45965076597100000000, 46653367974000000000, 47343333767200000000, 48034963568200000000,
  48728247069700000000, 49423174066500000000, 50119734456700000000, 50817918241400000000, 51517715525600000000, 52219116518400000000, 52922111532300000000, 53626690983900000000,
  54332845392800000000, 55040565381800000000, 55749841676100000000, 56460665102500000000, 57173026589300000000, 57886917165000000000, 58602327957600000000, 59319250194000000000,
  60037675198800000000, 60757594393600000000, 61478999295700000000, 62201881517400000000, 62926232764700000000, 63652044836500000000, 64379309623200000000, 65108019106000000000,
  65838165355400000000, 66569740530300000000, 67302736877000000000, 68037146727900000000, 68681963317900000000, 69057732133800000000, 69433345323200000000, 69808804669000000000,
  70184111932300000000, 70559268852200000000, 70934277146200000000, 71309138510900000000, 71683854622100000000, 72058427135200000000, 72432857685400000000, 72807147888300000000,
  73181299340000000000, 73555313617400000000, 73929192278800000000, 74302936863700000000, 74676548893600000000, 75050029872000000000, 75423381284800000000, 75796604600500000000,
  76169701270400000000, 76542672729200000000, 76915520394800000000, 77288245669000000000, 77660849937300000000, 78033334569700000000, 78405700920300000000, 78777950328100000000,
  79150084116900000000, 79522103595700000000, 79894010058700000000, 80265804785700000000, 80637489042600000000, 81009064080800000000, 81380531138400000000, 81751891439400000000,
  82123146194800000000, 82494296602200000000, 82865343846400000000, 83236289099100000000, 83607133519600000000, 83977878254600000000, 84348524438600000000, 84719073194100000000,
  85089525631400000000, 85459882849400000000, 85830145935100000000, 86200315964300000000, 86570394001400000000, 86940381099700000000, 87062084920200000000, 87162215430100000000,
  87260643877000000000, 87357362974000000000, 87452365351700000000, 87545643556300000000, 87637190048200000000, 87726997200400000000, 87815057296800000000, 87901362530600000000,
  87985905002800000000, 88068676720200000000, 88149669593900000000, 88228875437300000000, 88306285964600000000, 88381892788600000000, 88455687419200000000, 88527661261200000000,
  88597805612500000000, 88666111662100000000, 88732570487900000000, 88797173055000000000, 88859910213100000000, 88920772694700000000, 88979751112800000000, 89036835958700000000,
  89092017599400000000, 89145286275700000000, 89196632099400000000, 89246045051100000000, 89293514977500000000, 89339031588900000000, 89382584456800000000, 89424163010700000000,
  89463756535700000000, 89501354169600000000, 89536944900100000000, 89570517561700000000, 89602060832700000000, 89631563232000000000, 89659013116200000000, 89684398676200000000,
  89707707933700000000, 89728928737800000000, 89748048762000000000, 89765055499700000000, 89779936261200000000, 89792678169900000000, 89803268158000000000, 89811692962600000000,
  89817939122000000000, 89821992971000000000, 89823840637000000000, 89823468035200000000, 89820860864300000000, 89816004601500000000, 89808884498200000000, 89799485574600000000,
  89787792614800000000, 89773790161500000000, 89757462510700000000, 89738793706200000000, 89717767533700000000, 89694367515200000000, 89668576902800000000, 89855300784900000000,
  90289037922900000000, 90715320236300000000, 91134006346400000000, 91544956318200000000, 91948031454800000000, 92343094095700000000, 92730007421400000000, 93108635261700000000,
  93478841907500000000, 93840491926200000000, 94193449980400000000, 94537580648400000000, 94872748246700000000, 95198816653900000000, 95515649136200000000, 95823108172200000000,
  96121055279000000000, 96409350836800000000, 96687853913200000000, 96956422086200000000, 97214911264300000000, 97463175505600000000, 97701066832500000000, 97928435043900000000,
  98145127522900000000, 98350989040000000000, 98545861550600000000, 98729583987100000000, 98901992043700000000, 99062917954900000000, 99212190264500000000, 99349633586900000000,
  99475068357500000000, 99588310573300000000, 99689171521000000000, 99777457492700000000, 99852969487100000000, 99915502896500000000, 99964847175300000000, 100000000000000000000]

/-- color_maps.hpp:101, `blackbody_g`. -/
def blackbody_g : List ℕ := [
  0, 376710208302000000, 753420416604000000, 1130130624910000000, 1506840833210000000, 1883551041510000000, 2260261249810000000, 2636971458110000000,
  3013681666410000000, 3390391874720000000, 3767102083020000000, 4141466794990000000, 4497429346700000000, 4836477283820000000, 5160629233680000000, 5471538102300000000,
  5765056845020000000, 6025908266000000000, 6255423069010000000, 6455572907170000000, 6627873596650000000, 6777783847630000000, 6924018249120000000, 7068488518240000000,
  7211206142550000000, 7352181717310000000, 7491424994470000000, 7628944927120000000, 7764749709920000000, 7898846816080000000, 8031243030880000000, 8161944482420000000,
  8290956669580000000, 8418284487580000000, 8543932251340000000, 8667903716760000000, 8790202100120000000, 8910830095820000000, 9029789892520000000, 9147083187740000000,
  9262711201220000000, 9376674686910000000, 9488973943880000000, 9599608826040000000, 9708578750890000000, 9815882707280000000, 9921519262240000000, 10025502621000000000,
  10127863170400000000, 10228597287300000000, 10327701019600000000, 10425170081800000000, 10520999853600000000, 10615185378900000000, 10707721363800000000, 10798602174700000000,
  10887821835600000000, 10975374024900000000, 11061252072300000000, 11145448954900000000, 11227957292700000000, 11308769343900000000, 11387877000200000000, 11465271780300000000,
  11540944824800000000, 11614886888900000000, 11687088335300000000, 11757539127300000000, 11826228819700000000, 11893146550900000000, 11958281033000000000, 12021620542700000000,
  12083152909900000000, 12142865507300000000, 12200745238200000000, 12256778524100000000, 12310951291400000000, 12363248957300000000, 12413656415000000000, 12462158018000000000,
  12508737563300000000, 12553378273900000000, 12596062779900000000, 12636773099200000000, 12675490616500000000, 12712196061000000000, 12746869483400000000, 12779490230800000000,
  12810036921000000000, 12838487414500000000, 12864818785300000000, 12889007289400000000, 12911028332600000000, 12930856434900000000, 12948465193400000000, 12963827243200000000,
  12976914215500000000, 12987696692600000000, 12996144160900000000, 13002224960700000000, 13206113973500000000, 13984136503500000000, 14736658359600000000, 15467010068300000000,
  16177911023100000000, 16871613022000000000, 17550003480300000000, 18214681303600000000, 18867013747800000000, 19508179759300000000, 20139203510900000000, 20760980702600000000,
  21374299438300000000, 21979856979500000000, 22578273324400000000, 23170102312900000000, 23755840785700000000, 24335936194200000000, 24910792969400000000, 25480777886300000000,
  26046224609500000000, 26607437567300000000, 27164695270100000000, 27718253167600000000, 28268346119000000000, 28815190539900000000, 29358986273100000000, 29899918227600000000,
  30438157818500000000, 30973864235900000000, 31507185567800000000, 32038259796200000000, 32567215683700000000, 33094173563900000000, 33619246049600000000, 34142538667100000000,
  34664150426700000000, 35184174337200000000, 35702697870300000000, 36219803380400000000, 36735568486500000000, 37250066417600000000, 37763366328700000000, 38275533588100000000,
  38786630039500000000, 39296714243000000000, 39805841694800000000, 40314065029400000000, 40821434205500000000, 41327996676900000000, 42025968812700000000, 42734161938800000000,
  43437251904700000000, 44135511409400000000, 44829194068300000000, 45518536159000000000, 46203758170400000000, 46885066181600000000, 47562653091000000000, 48236699716400000000,
  48907375782200000000, 49574840805800000000, 50239244897600000000, 50900729482800000000, 51559427955000000000, 52215466269200000000, 52868963480400000000, 53520032233900000000,
  54168779213300000000, 54815305548800000000, 55459707191400000000, 56102075256500000000, 56742496338000000000, 57381052798900000000, 58017823037100000000, 58652881731900000000,
  59286300070900000000, 59918145960000000000, 60548484217800000000, 61177376755700000000, 61804882745400000000, 62431058773700000000, 63055958987500000000, 63679635227900000000,
  64302137155800000000, 64923512368800000000, 65543806510400000000, 66163063372100000000, 66781324989000000000, 67398631729100000000, 68015022377300000000, 68630534214100000000,
  69245203089200000000, 69859063491200000000, 70472148612400000000, 71084490410800000000, 71696119667400000000, 72307066041000000000, 72917358119500000000, 73527023468300000000,
  74136088676300000000, 74744579399100000000, 75352520400000000000, 75959935588400000000, 76566848057000000000, 77173280116200000000, 77779253327100000000, 78384788532700000000,
  78989905887700000000, 79594624886300000000, 80198964389300000000, 80802942649400000000, 81406577335200000000, 82009885554400000000, 82612883875400000000, 83123324982500000000,
  83525728257200000000, 83929041522500000000, 84333274527600000000, 84738436689200000000, 85144537099100000000, 85551584532000000000, 85959587452800000000, 86368554024100000000,
  86778492112700000000, 87189409297300000000, 87601312874300000000, 88014209865200000000, 88428107022700000000, 88843010836900000000, 89258927541400000000, 89675863119700000000,
  90093823310700000000, 90512813614600000000, 90932839298400000000, 91353905401600000000, 91776016741300000000, 92199177917600000000, 92623393319000000000, 93048667126800000000,
  93475003320600000000, 93902405682800000000, 94330877803500000000, 94760423085000000000, 95191044746400000000, 95622745827800000000, 96055529194800000000, 96489397542800000000,
  96924353400900000000, 97360399136400000000, 97797536958000000000, 98235768920600000000, 98675096928400000000, 99115522738900000000, 99557047966500000000, 100000000000000000000]

/-- color_maps.hpp:104, `blackbody_b`. -/
def blackbody_b : List ℕ := [
  0, 210713336054000000, 421426672107000000, 632140008161000000, 842853344215000000, 1053566680270000000, 1264280016320000000, 1474993352380000000,
  1685706688430000000, 1896420024480000000, 2107133360540000000, 2317846696590000000, 2528560032640000000, 2739273368700000000, 2949986704750000000, 3160700040810000000,
  3371933920320000000, 3585344536250000000, 3801092098210000000, 4019225661390000000, 4233896839180000000, 4443391333730000000, 4645634403300000000, 4840869742790000000,
  5029582071670000000, 5212199283960000000, 5389101229170000000, 5560626826580000000, 5727079882850000000, 5888733890180000000, 6045836014490000000, 6198610434540000000,
  6347261156110000000, 6491974398580000000, 6632920630430000000, 6770256314720000000, 6904125413280000000, 7034660689090000000, 7161984838820000000, 7286211481870000000,
  7407446027280000000, 7525786436550000000, 7641323897000000000, 7754143418300000000, 7864324362360000000, 7971940915650000000, 8077062511090000000, 8180559148110000000,
  8284123869630000000, 8387757164850000000, 8491459706850000000, 8595232141230000000, 8699075087140000000, 8802989138360000000, 8906974864190000000, 9011032810450000000,
  9115163500320000000, 9219367435210000000, 9323645095560000000, 9427996941640000000, 9532423414250000000, 9636924935480000000, 9741501909380000000, 9846154722600000000,
  9950883745030000000, 10055689330400000000, 10160571816800000000, 10265531527500000000, 10370568771000000000, 10475683842000000000, 10580877021600000000, 10686148578000000000,
  10791498766800000000, 10896927831200000000, 11002436003200000000, 11108023503000000000, 11213690540300000000, 11319437313800000000, 11425264012300000000, 11531170814700000000,
  11637157890500000000, 11743225399700000000, 11849373493600000000, 11955602315000000000, 12061911998200000000, 12168302669700000000, 12274774447900000000, 12381327443900000000,
  12487961761700000000, 12594677497900000000, 12701474742700000000, 12808353579300000000, 12915314085000000000, 13022356330500000000, 13129480380900000000, 13236686295400000000,
  13343974127600000000, 13451343925600000000, 13558795732700000000, 13666329586600000000, 13726053577200000000, 13642193833100000000, 13555415609900000000, 13465643133600000000,
  13372796856400000000, 13276793180300000000, 13177544152800000000, 13074957133700000000, 12968934428100000000, 12859372881700000000, 12746163433300000000, 12629190619800000000,
  12508332025500000000, 12383457670100000000, 12254429324700000000, 12121099746900000000, 11983311822000000000, 11840897595600000000, 11693677181700000000, 11541457524200000000,
  11384030988800000000, 11221173754400000000, 11052643969700000000, 10878179629900000000, 10697496121700000000, 10510283368300000000, 10316202495500000000, 10114881913300000000,
  9905912685180000000, 9688843019390000000, 9463171670040000000, 9228339972640000000, 8983722152340000000, 8728613424630000000, 8462215241790000000, 8183616802880000000,
  7891771603220000000, 7585467297050000000, 7263286389430000000, 6923554106180000000, 6564267941400000000, 6183000362130000000, 5776761042780000000, 5341796007860000000,
  4873284452220000000, 4364861546890000000, 3807961966380000000, 3229043868350000000, 2641183394460000000, 2044325897960000000, 1962070433430000000, 1922505910850000000,
  1883960734920000000, 1846455775690000000, 1810011903220000000, 1774649987570000000, 1740390898800000000, 1707255506970000000, 1675264682120000000, 1644439294320000000,
  1614800213630000000, 1586368310110000000, 1559164453800000000, 1533209514770000000, 1508524363080000000, 1485129868780000000, 1463046901940000000, 1442296332600000000,
  1422899030820000000, 1404875866670000000, 1388247710200000000, 1373035431470000000, 1359259900530000000, 1346941987450000000, 1336102562270000000, 1326762495060000000,
  1318942655880000000, 1312663914780000000, 1307947141820000000, 1304813207060000000, 1303282980550000000, 1303377332350000000, 1305117132520000000, 1308523251120000000,
  1313616558200000000, 1320417923830000000, 1328948218050000000, 1339228310930000000, 1351279072520000000, 1365121372890000000, 1380776082080000000, 1398264070160000000,
  1417606207190000000, 1438823363210000000, 1461936408290000000, 1486966212490000000, 1513933645860000000, 1542859578460000000, 1573764880350000000, 1606670421590000000,
  1641597072220000000, 1678565702320000000, 1717597181940000000, 1758712381130000000, 1801932169950000000, 1847277418460000000, 1894768996720000000, 1944427774790000000,
  1996274622720000000, 2050330410560000000, 2106616008380000000, 2165152286240000000, 2225960114190000000, 2289060362290000000, 2354473900600000000, 6826100781570000000,
  12717379155500000000, 16936596405000000000, 20455362557700000000, 23576422480800000000, 26439132942100000000, 29120486202100000000, 31667937294200000000, 34112970192800000000,
  36477612426300000000, 38777907412100000000, 41025913859200000000, 43230927905000000000, 45400266623100000000, 47539790300000000000, 49654262079900000000, 51747602533000000000,
  53823074154900000000, 55883417852000000000, 57930955738400000000, 59967669797100000000, 61995262926400000000, 64015206920900000000, 66028780611800000000, 68037100501200000000,
  70041145597200000000, 72041777721300000000, 74039758244100000000, 76035761976800000000, 78030388779100000000, 80024173319000000000, 82017593324300000000, 84011076598700000000,
  86005007013900000000, 87999729653700000000, 89995555246700000000, 91992764004100000000, 93991608953400000000, 95992318844300000000, 97995100692900000000, 100000000000000000000]

/-- color_maps.hpp:124, `kindlmann_r`. -/
def kindlmann_r : List ℕ := [
  0, 1784607406628425200, 3572864786642702000, 5220741890989234000, 6579320887318146000, 7760358429899875000, 8789358790850602000, 9712335630575433000,
  10521029512901023000, 11206559338234914000, 11777117178354526000, 12274092212849055000, 12721746956233745000, 13120675065695167000, 13476383339950823000, 13794168509646590000,
  14078915018940993000, 14328800070233533000, 14549256977453920000, 14744975665550916000, 14915607230438568000, 15064370028657081000, 15192214754665317000, 15296806024037430000,
  15375355050540976000, 15429081165144550000, 15455584740256964000, 15454470889937796000, 15424074730776174000, 15362513362574176000, 15272770714157807000, 15150259153104584000,
  14996750216169222000, 14812236887738720000, 14596849097254724000, 14350871584895447000, 14081675084553444000, 13777021342781093000, 13452661891393936000, 13103033265010522000,
  12740778581316103000, 12359314328868806000, 11974712167592705000, 11594048770513330000, 11209206787148834000, 10842241040440373000, 10502538487229210000, 10199960901797600000,
  9922826785261996000, 9722602817414985000, 9528935573037353000, 9308237314783260000, 7818912394127370000, 5857961917089497000, 3284057845765246000, 3267944206973462400,
  3320756013953070400, 3331718720049236400, 3308744533447298400, 3265381069556877000, 3277467744530855000, 3250222910006980000, 3206604559359614600, 3227600851941834000,
  3164933157941670500, 3155801725217711000, 3108383308445180000, 3043297304773418700, 3033861929578853700, 2985396036776729500, 2966850358552374000, 2882374869999708000,
  2850063804022453700, 2824591997435102500, 2760771294131195000, 2717197158834595000, 2698222179262854300, 2655964239713344200, 2644787880084816000, 2564842515734134000,
  2570596827933925000, 2510590228868295200, 2487037553625424600, 2449513756313194400, 2397954323509251000, 2382970877075878800, 2353260470411696500, 2307993829976581000,
  2297959521060142400, 2270763536162226400, 2225041408478973700, 2212447799806799300, 2179106997733615300, 2177625631950283800, 2152936248024083000, 2158822978060292000,
  2138803742704730200, 2090612637982674700, 2070114401850818000, 2077470800535083400, 2052690947127539700, 1993018897938756000, 2020289046425452000, 2020703202326758200,
  2020571611917850200, 2082905171626341400, 2081716925355077400, 2143446555544063000, 2140951927285399000, 2137510104110804500, 2197836820842124400, 2192594101947039500,
  2251832449506811400, 2244396507449860000, 2302262600613305000, 2292152738002888700, 2348274577290272400, 2334902491772799000, 2388799646532300400, 2371451050134705500,
  2422515397470176600, 2472326614238631500, 2447812509827954000, 2493648885622696000, 2537640236814780000, 2579562607514771300, 2542147454539385800, 2578030966725139400,
  2610999696637235000, 2640743758393429600, 2666932808870506000, 2689217252655957000, 2707229894081740800, 2720588072759800800, 2728896314625869600, 2820420330464275300,
  2818855926117445200, 2811032072188810000, 2889613048508020800, 2869532013424447700, 2938067552317691700, 2904189579247092700, 2961210974815816500, 3012717383747985300,
  2956323068919829500, 2994418923275729200, 3026178916593113800, 3051408073912582500, 3069965265074519500, 3081771482308970000, 3086818674766468000, 3197034466002908000,
  4629399667765423500, 5879455857086380400, 6503863628200135000, 7023149742711651000, 7671381284149420000, 8432067120858369000, 9294277780722546000, 10305233592409935000,
  11331609119127764000, 12476614069574826000, 13673711440841982000, 14916368434921670000, 16199129317074465000, 17553308151438088000, 18933948484375165000, 20338652270943824000,
  21765378276012448000, 23212369587552023000, 24702985279407214000, 26207757059351130000, 27725911342554360000, 29277126161242380000, 30837815765989690000, 32407631237430590000,
  33986207442019495000, 35589077086798860000, 37183114251533030000, 38813047246050614000, 40433712219392970000, 42072356025646707000, 43714739423907745000, 45360699836908186000,
  47020512489749350000, 48682275566651570000, 50345858800279100000, 52019799696547290000, 53686015350926560000, 55368839051150040000, 57043695751263100000, 58725245113605370000,
  60405758552429600000, 62085126329870390000, 63763230012656650000, 65444829261752300000, 67124093040970000000, 68804998673676550000, 70478910488514650000, 72153503565755150000,
  73827561464916910000, 75494780240821150000, 77160598912012520000, 78822031324214560000, 80479023623529040000, 82155232684637770000, 83873984800237230000, 85634154494159800000,
  87437680835386620000, 89285288847368740000, 91177641294749800000, 93115331288558410000, 95100156693580570000, 96293010348101100000, 96834103547430990000, 97193808005349770000,
  97467515613325060000, 97681366326553560000, 97864903779015900000, 98020367044510570000, 98155409104755100000, 98277326258257810000, 98391574538348340000, 98487840924873230000,
  98583201151913560000, 98665586579169940000, 98736779956790010000, 98818053791418890000, 98876110477894850000, 98940434434149850000, 99007586490578560000, 99059092673338000000,
  99112771894214450000, 99160614623812130000, 99221589855634510000, 99256794409188940000, 99314242797384160000, 99352177360480070000, 99388790843276780000, 99427342946785000000,
  99471115066548170000, 99505693823305600000, 99551228753255600000, 99592500220237570000, 99612740422130230000, 99651435451434080000, 99692215384258600000, 99717316947266610000,
  99768257197837140000, 99786613701324590000, 99834899422124430000, 99852977706272540000, 99883667142625120000, 99928765298186300000, 99946976714361090000, 100000000000000000000]

/-- color_maps.hpp:127, `kindlmann_g`. -/
def kindlmann_g : List ℕ := [
  0, 91585598748933620, 172912292503288060, 250985783525114900, 319515549510188950, 372453405888059600, 429457482604896500, 484262516689504600,
  537395333885192200, 594616955328960800, 657375405074537100, 719096739892026700, 776593079162121300, 836150575599295200, 896551320630378100, 955151398433963300,
  1008034051888386300, 1065429278411211300, 1122394566644140600, 1172962096468942000, 1226576139848522600, 1282589628558695800, 1334046439773958400, 1383169406084123000,
  1446990595379312600, 1499139647428225800, 1556655327475802200, 1619279407587136000, 1677345343135211000, 1730005530615292000, 1795541706081545500, 1854283407719335300,
  1915012152394063700, 1976957964698822200, 2039268583437749000, 2101013534418837500, 2171662181336097800, 2229351629652575500, 2294059347319255300, 2354143266686667400,
  2419512642719467600, 2478157183010519500, 2540314929298351600, 2605312051285380000, 2660656407054731000, 2717266184945997000, 2774678907854372800, 2832560680437759000,
  2877955054244731700, 2936178919960733000, 2989077743834433700, 3043804483352339700, 3112158630013168300, 3192483213312600000, 3469657698669593000, 4697971049610799000,
  5995495438213944000, 7300667062971217000, 8601513051125326000, 9888929701373608000, 11161079522124029000, 12401116038242680000, 13606903293962488000, 14780096691985975000,
  15909372791133777000, 17001566158899392000, 18051935094604918000, 19062325974122588000, 20036054096647732000, 20971568331952556000, 21872424150105790000, 22738662298187850000,
  23574419944330610000, 24380777892174738000, 25159407176859190000, 25912806556578544000, 26642706521407800000, 27350794101395076000, 28038747424189320000, 28708525962416670000,
  29360869815637475000, 29998097438401780000, 30620709089548000000, 31230345082684530000, 31828162552465430000, 32414426165027227000, 32990776857516413000, 33558130904480930000,
  34116326706905720000, 34667027018620770000, 35210962409096500000, 35747618124451240000, 36278698871744170000, 36803488348092290000, 37323730449659330000, 37838527471660577000,
  38349668536630105000, 38857606316807830000, 39361200314806790000, 39860702268428010000, 40358006584773050000, 40853470694640050000, 41343922359228920000, 41834155873012324000,
  42324888777657366000, 42814253234088623000, 43305802908290610000, 43795839512616400000, 44287991873506705000, 44780374886313260000, 45271034115960945000, 45763704847590275000,
  46254516067408220000, 46747270597219640000, 47238034113781563000, 47730674306853420000, 48221196634187520000, 48713531181669306000, 49203626102593040000, 49695471588067370000,
  50184961240794830000, 50674077706248510000, 51164859211958480000, 51653121976959550000, 52140893740642840000, 52628138217672960000, 53116949507619020000, 53603048885089000000,
  54088521588777960000, 54573338067197710000, 55057470644345450000, 55540893599822960000, 56023583251231090000, 56505518039511630000, 56986678618104370000, 57464820866597720000,
  57944374808731810000, 58423111068142370000, 58898765103274950000, 59375831838643930000, 59849789099307760000, 60325172787471060000, 60797433654638440000, 61268851192141230000,
  61741738908880450000, 62211514058210170000, 62680491848407290000, 63148697292836140000, 63616161168423980000, 64082920877249750000, 64549021608155010000, 65012175634415140000,
  65447205797717810000, 65882715497010280000, 66330557776237680000, 66781201453947010000, 67228071776487710000, 67671398701081010000, 68110859645629380000, 68543781065733110000,
  68974598171426920000, 69398304797036250000, 69816998568662270000, 70230424089945850000, 70638336110194900000, 71038150978630630000, 71432001036365590000, 71819671549760120000,
  72200956605917890000, 72575658937855010000, 72941277963745310000, 73299966066254390000, 73651554849185550000, 73993606899866390000, 74328276015905040000, 74655422845395500000,
  74974916256915190000, 75284420214038420000, 75588265579865480000, 75879770570984030000, 76165419958266840000, 76440810131950430000, 76708038478621020000, 76967038037270100000,
  77215711831107660000, 77456109308447750000, 77688190009297920000, 77909987713735800000, 78125377768427320000, 78328666919539260000, 78525522733063270000, 78712287908423900000,
  78890820490246780000, 79061132363173940000, 79223239586821110000, 79375615559754360000, 79519950380688830000, 79654855659448440000, 79783281759132310000, 79902494267397930000,
  80012751525474870000, 80116615148120470000, 80211788579568220000, 80299554407356110000, 80379979892521170000, 80445553167903790000, 80488176898987470000, 80507967193496720000,
  80502675676726010000, 80470767680170040000, 80410621773634950000, 80320525183459660000, 80198615210936610000, 80144393318669590000, 80246693327353110000, 80440657722115660000,
  80694477013304530000, 80993585525253160000, 81325747051322560000, 81685949519418320000, 82069247222621270000, 82471428375309340000, 82889142742855990000, 83323188247141890000,
  83768081477381730000, 84225594367747920000, 84694332498624090000, 85168049416188120000, 85654427818737470000, 86145288247187570000, 86640876804098480000, 87145450881114330000,
  87653911085262170000, 88167907236710020000, 88682076171316970000, 89206251887422860000, 89727518024067530000, 90256523486825110000, 90788215739873830000, 91321484546453820000,
  91855241616281300000, 92393026506401050000, 92929397409282520000, 93468126186300850000, 94013338913459690000, 94554701679790510000, 95096298446142440000, 95642500047134180000,
  96182656959934630000, 96731394709058300000, 97272897257411300000, 97822080046537240000, 98368184031087190000, 98910748858237400000, 99459772044259030000, 100000000000000000000]

/-- color_maps.hpp:130, `kindlmann_b`. -/
def kindlmann_b : List ℕ := [
  0, 1605629537449814600, 3302143519907636000, 4992588792612627000, 6457251900523656000, 7776920342353211000, 8971983937395220000, 10086394984030281000,
  11223547956850252000, 12432777397900399000, 13716171084354922000, 15010297798342745000, 16282606289653710000, 17526973313157249000, 18747685887287390000, 19950142700407380000,
  21140807652685528000, 22305086172802313000, 23450000042491753000, 24583568409411483000, 25691255325714540000, 26781465454851080000, 27899859238410224000, 29046429953683084000,
  30195802722148560000, 31385244155001900000, 32589022070276790000, 33806244358269290000, 35049519357467750000, 36318475870566860000, 37584700944057160000, 38874811088487920000,
  40173842346174810000, 41480559698397830000, 42793691410477086000, 44111937244465020000, 45418851052121060000, 46743188916386020000, 48053217251642305000, 49362776425328886000,
  50654848663664650000, 51943706487316840000, 53212190222216570000, 54458880178185010000, 55698774134936920000, 56914696843349890000, 58105686084260630000, 59270977354048160000,
  60426683534832790000, 61539236365799810000, 62649553202416090000, 63765090971164110000, 65255777815864640000, 66762048413513290000, 68137387136318980000, 68490341477717310000,
  68682415839111880000, 68747597612363080000, 68687541538083520000, 68505220827721280000, 68188701112403530000, 67775536385353890000, 67271107901512530000, 66665968467941930000,
  66012645297559370000, 65286437979651680000, 64523183878218730000, 63727841056202770000, 62891281683745580000, 62046295626464120000, 61183015488759580000, 60331455384900100000,
  59468250200061820000, 58609256296250720000, 57768691571879130000, 56936014112666090000, 56113051129186920000, 55312260989170670000, 54523510993653690000, 53768304815077920000,
  53016270488054850000, 52297671371995690000, 51593070806179250000, 50911882745550940000, 50253653775626100000, 49609856389914570000, 48988582950117815000, 48389161718469750000,
  47803935490382515000, 47239768157026280000, 46695847028238650000, 46165444016667906000, 45654262929804507000, 45156215250307846000, 44676258718151424000, 44208955676541317000,
  43758535324043873000, 43324028023818490000, 42900987398337660000, 42489450652203850000, 42092228893650680000, 41708318735836630000, 41332502021802126000, 40954621812568487000,
  40558960358734590000, 40144434527854580000, 39713291520201920000, 39263853246614190000, 38796855906767097000, 38311604086792060000, 37808947351353550000, 37287315760270200000,
  36748902291735330000, 36190569540256970000, 35616104136154270000, 35020772919251500000, 34409988145088766000, 33777387462721170000, 33130046883268455000, 32459934406811614000,
  31775836274777450000, 31073519425545465000, 30346982244126340000, 29607689683335860000, 28850111378145044000, 28074244497417117000, 27272168631694720000, 26459228296146480000,
  25628033494817076000, 24778625044642160000, 23911058806014890000, 23025407723132530000, 22121764273058586000, 21200243435709660000, 20260986337352000000, 19318007629151898000,
  18344751604265283000, 17354484850307106000, 16364429504261102000, 15342448038702410000, 14324398649586118000, 13273404723048013000, 12231515476812047000, 11181097337543550000,
  10096978844729684000, 9035027988372307000, 7974541336580176000, 6921734345076924000, 5885329347452114000, 4877724313606999000, 3915677764354433000, 3144438019486888600,
  3163729107485510600, 3175215813109160000, 3209873268943441000, 3183433002082528000, 3213207659663712400, 3233856360270962600, 3244407198720848700, 3307401108271617000,
  3295480891791886000, 3335361972217093500, 3362590965526557000, 3376227598436904600, 3375336199700755000, 3426353710068628000, 3462289684303036000, 3482214714504671000,
  3485205548447320000, 3470346402383256000, 3507444712661609000, 3526226032088622400, 3525791814557077000, 3578053638842560600, 3610724156995657000, 3622931411879970500,
  3613819725600252000, 3658196651859020600, 3604642179499005500, 3681458696854892000, 3658736257615303000, 3690635392025313000, 3699298731846738000, 3683987811183992000,
  3724796925537228000, 3741721945550260000, 3734086718256391000, 3784362950139135000, 3726439057607977000, 3811419629505490000, 3787015508826886000, 3822846891183527000,
  3833696358570872000, 3819060762615894000, 3778469202199975000, 3800948341735075000, 3798214896623336000, 3861011146997430500, 3807498680487568000, 3820456984010566000,
  3902092612392253000, 3865607007534288000, 3898938094108487400, 3908165535934637000, 3893065650816213000, 3926557049926157000, 4067065212316836000, 4123085284140562000,
  4192615839004580000, 4276447225910470000, 4375041022498651000, 4488513566735998600, 4532603899543026000, 22169249312004036000, 33584468584303730000, 41141028050538950000,
  46819081680773716000, 51405465106788950000, 55225695033556050000, 58514519686362620000, 61397958143852430000, 63957460265680980000, 66251863289852150000, 68349117381621050000,
  70257067241234360000, 72023998678390390000, 73668448861076970000, 75180898647739180000, 76619099603665660000, 77958792617847790000, 79216048706646450000, 80419427910712220000,
  81557564743322130000, 82645199008222660000, 83670969989638100000, 84674738514924740000, 85619338596965470000, 86544028208373260000, 87437033830840500000, 88299273519620130000,
  89131608528817220000, 89947224867250810000, 90734394191028490000, 91506112814106940000, 92275183970110230000, 93017520474429420000, 93745877085480320000, 94472866984018070000,
  95174425999567170000, 95887465046639800000, 96575697724967760000, 97275910138711360000, 97963969691618550000, 98640069690159980000, 99328745636438660000, 100000000000000000000]

/-- color_maps.hpp:150, `extended_kindlmann_r`. -/
def extended_kindlmann_r : List ℕ := [
  0, 1780246283347332000, 3532931821571093000, 5144940541667612000, 6456211632121770000, 7579594587865912000, 8560873187665013000, 9423038243510940000,
  10126270743754426000, 10670728559557496000, 11057848107867363000, 11345334766875653000, 11546967754116774000, 11670723282215431000, 11719317716660224000, 11698590922074067000,
  11610841583017484000, 11462189563389044000, 11260886490150057000, 11014892407081325000, 10738267131156420000, 10439994774781663000, 10102122555390916000, 9733788080504890000,
  9343083659118528000, 8930170392567455000, 8525050060408929000, 8133294699659654000, 7770620978910117000, 7453843004300356000, 7234014248177378000, 7070739337749535000,
  6795561424010746000, 5495344243231267000, 3272243214743511000, 2254207962910754300, 2245806830462326500, 2233509556200540300, 2211654880762363400, 2182753874600819700,
  2152986717396973000, 2094627101890751000, 2045606049512309000, 2004833311662032000, 1966562996197511800, 1920757736033873800, 1853714077283159800, 1809424185998195000,
  1766141281376398000, 1730286273144011000, 1676551384881880600, 1637012620701174700, 1612599591900366200, 1574383584819265300, 1521780170762751000, 1482652392438314200,
  1455583202575653000, 1439028612210210700, 1401191893294417300, 1369654588450027400, 1342457443172910700, 1317586877176496600, 1292963716411873000, 1266428421095176400,
  1271597567805270500, 1293527731229200200, 1315182827792932400, 1336579795737982900, 1357726386396200000, 1378615567948453000, 1399219492238965900, 1419483115816188800,
  1439317592763369100, 1458593586314957700, 1477134678848904300, 1531633098020307800, 1548586747926746500, 1563997996336589200, 1577446162319155400, 1588440162820881000,
  1637131997838779300, 1642402169111401700, 1686035446719742000, 1683021415874595700, 1718989020344268600, 1750571051952520000, 1777010654607037700, 1797534767005524000,
  1811381124020324300, 1817830121675857000, 1867892582325797800, 1858851921615119000, 1894688653332262500, 1923442110576547800, 2392266424363313400, 3269632977713677500,
  4029295620970803000, 4450517721073340000, 5023033461306361000, 5751407234865658000, 6662959400279314000, 7687976931053314000, 8808647489550425000, 10009395068503488000,
  11305049861381905000, 12651701631067810000, 14064355039494827000, 15509985051348987000, 17002834364548297000, 18517425344416824000, 20051258579758780000, 21616092534090360000,
  23193556411255867000, 24793825797637276000, 26412488725558203000, 28036067129387160000, 29663793807437600000, 31302849974924285000, 32943003517049860000, 34590124095052570000,
  36241579766239360000, 37889809766361104000, 39534430178227603000, 41179003849439816000, 42818080415815335000, 44454202719836080000, 46083197524945735000, 47706652716959900000,
  49330882182932195000, 51013415691761420000, 52760837981194850000, 54576758082743450000, 56463230601165510000, 58420726261556430000, 60452661038505810000, 62559190009836640000,
  64738003794038470000, 66990687949029670000, 69320018372001860000, 71713358687447610000, 74179060384301610000, 76704846853276430000, 79279235276008840000, 81905386183499160000,
  84563554746214600000, 87242739418431130000, 89930717343474230000, 92599380492764420000, 95240006413475000000, 95733022634336310000, 95937626512673650000, 96090034692576340000,
  96215568495139180000, 96316446728950960000, 96409579238682800000, 96487933119380410000, 96550773428029520000, 96605878600544250000, 96659941278539090000, 96715165068581190000,
  96772766574418550000, 96850452243799700000, 96928717342102630000, 97025407720043740000, 97121797729346690000, 97223174640269850000, 97322638210325680000, 97424626144188890000,
  97508716613985740000, 97541472887604540000, 97561804398623710000, 97584233800658800000, 97610818748225270000, 97631121648475840000, 97658886854979330000, 97671102374680870000,
  97693365593969050000, 97714593184672000000, 97735787831724370000, 97757857585798680000, 97781624373000410000, 97795960064980890000, 97825351790194770000, 97846747515084160000,
  97860949143496760000, 97880265227466500000, 97905151093704530000, 97924679086390960000, 97939525557801600000, 97961452830710620000, 97979753025085710000, 97995026055748980000,
  98022832607587320000, 97380849056709510000, 96014725110088940000, 94783790015709830000, 93665168980090050000, 92656058952789100000, 91762008368206800000, 90953567699913220000,
  90245012262046440000, 89624657354271420000, 89089280045928650000, 88628295199687380000, 88232079496422510000, 87911842920359250000, 87657392878320800000, 87459462119512330000,
  87321488501903370000, 87234493145810010000, 87195805126691400000, 87202693802142710000, 87252401816134600000, 87342178806379810000, 87464312572999380000, 87621350417616730000,
  87810701852063500000, 88020334615082900000, 88257655285417820000, 88515686373544200000, 88792367190894790000, 89085718543379500000, 89393773398656930000, 89705306583311680000,
  89956883021157490000, 90198900256200540000, 90411897515896280000, 90589735253699240000, 90739929635433780000, 90862797415755430000, 90966550963375530000, 91050359869315710000,
  91122805287106460000, 91188567916417180000, 91251609892490340000, 91315211101591860000, 91382948072283580000, 91459344892630290000, 91547216241939130000, 91651622611522940000,
  91776216270854780000, 91920000909089930000, 92088342801318200000, 92278075186087100000, 92500921071693140000, 92753566848089120000, 93044082849721040000, 93382390503834620000,
  93764060191345180000, 94216308270400320000, 94735784261394360000, 95363702823490440000, 96127762621524900000, 97067822253329870000, 98299870672262100000, 100000000000000000000]

/-- color_maps.hpp:153, `extended_kindlmann_g`. -/
def extended_kindlmann_g : List ℕ := [
  0, 87509071173293810, 170180285599288800, 248406519671509050, 322486457668476380, 386353268591257350, 446549771221033700, 505024202280474900,
  568489274107817900, 637237978022937200, 711002225409038000, 780193072207991500, 855115910541617500, 929010955184481200, 1005339000375936700, 1073898221496574800,
  1142365910376503400, 1211663098362547800, 1282148972137775300, 1346836906241216500, 1411939239257181500, 1475751474579802700, 1534328021883830600, 1595760008759380600,
  1658496280615463400, 1713482653380763000, 1774099087495860000, 1831566301704274500, 1884647216179811600, 1932331054785257200, 1990543428622034200, 2035820260366525200,
  2088077437351232600, 2153229240969933000, 2225162184131813600, 3008746948264907200, 4351001751784703400, 5761206416019385600, 7134877081764332000, 8452599623053175000,
  9703540427752388000, 10880255131356930000, 11985098869691474000, 13019611448976093000, 13987346436551024000, 14893167904386712000, 15742727919356447000, 16542627229987475000,
  17297867619886820000, 18013597770041306000, 18694679199155506000, 19345202807035153000, 19968741140572166000, 20569130878531383000, 21149505980303446000, 21711739930665275000,
  22257980137551625000, 22790128960508610000, 23311039219433838000, 23821209907670415000, 24321964058367318000, 24814482833227120000, 25299823615552830000, 25778935856659907000,
  26251129306552407000, 26721180456135596000, 27191322483795060000, 27661412174721410000, 28131308067549815000, 28600870902153860000, 29069964085468600000, 29538454173559130000,
  30006211367918250000, 30473110023777080000, 30939029168060140000, 31401961571964300000, 31865559927066100000, 32327849834847494000, 32788734271858383000, 33248123546361147000,
  33703949582699320000, 34160094506458616000, 34612505092540440000, 35065150775079285000, 35513931662405820000, 35960835629733406000, 36405841970084374000, 36848942204017050000,
  37290140979305425000, 37729457180004805000, 38164797959813370000, 38600461104105177000, 39032256740422405000, 39462412495286430000, 39873762922211814000, 40268821797442356000,
  40668863206181144000, 41080667550280120000, 41487024245897030000, 41887120204712790000, 42277996280066904000, 42661141097115085000, 43035905576270020000, 43401685946156870000,
  43755751986676594000, 44099767416771900000, 44431106175406876000, 44751498949030650000, 45058430773068510000, 45353690032399190000, 45636954334113640000, 45905890707781600000,
  46162347760839634000, 46404131813258170000, 46631173979566570000, 46845360102788550000, 47046590244093683000, 47232989838033596000, 47406424350628180000, 47565200779497400000,
  47709531963103520000, 47841222515883747000, 47960350271232650000, 48065635396111855000, 48158740248160330000, 48238619597444804000, 48306807922963163000, 48362515675529590000,
  48404259768616237000, 48412699398745970000, 48384775941753640000, 48315810062152790000, 48201590123588106000, 48037568058911370000, 47818827367189590000, 47539734049324306000,
  47195081918673226000, 46778151687304530000, 46280562738356607000, 45698839869791260000, 45020610372391050000, 44240849413873790000, 43354310937642690000, 42346766491840170000,
  41215653518523960000, 39953216159150200000, 38551601321374424000, 37015816569660960000, 35336305893824930000, 35657318183240200000, 36259984580057280000, 36912675997558980000,
  37591169845314204000, 38293001798772120000, 39002737893200634000, 39726058852724230000, 40462643797868664000, 41205105448230417000, 41947345091288340000, 42684217160268030000,
  43382691945294010000, 44042580568421147000, 44677015968276560000, 45269977328586647000, 45837869586824703000, 46379761954494720000, 46903038930488866000, 47406784689757090000,
  47906712039978090000, 48426690155536630000, 48941330245201103000, 49442037450446213000, 49928542442016680000, 50408770383260320000, 50874425726980330000, 51341647741492360000,
  51794138797647560000, 52240007331326410000, 52679283688074810000, 53112035623180530000, 53538363519190770000, 53966579707257940000, 54380495376091450000, 54796682274144030000,
  55215422996950010000, 55628738829254480000, 56036871369664510000, 56448435838280430000, 56863807961773480000, 57274942075450810000, 57690604937578850000, 58111213192193100000,
  58519284365610170000, 59448155912037180000, 60937150876409500000, 62304638207021530000, 63578325373011490000, 64767891288847800000, 65875171091963140000, 66926461188404280000,
  67914608466035480000, 68850753773217720000, 69739070651674530000, 70588675994707330000, 71407695568180140000, 72188016047004430000, 72937385846677300000, 73662835047291990000,
  74361165931046390000, 75038884531664060000, 75697363474052970000, 76337875051976380000, 76961595599049530000, 77569608539369210000, 78167333630526040000, 78751164671122750000,
  79321935233906070000, 79889028619367400000, 80444366006741070000, 80992825849350310000, 81534884866196100000, 82070971066331780000, 82601478644016650000, 83131612211713850000,
  83682294034899760000, 84235108135174940000, 84795417842892910000, 85367846985188030000, 85947121990630770000, 86535202707802980000, 87126694171891640000, 87726073093432420000,
  88327876344255580000, 88930335492834890000, 89532002534139010000, 90133649674756510000, 90732047403415600000, 91329346227111210000, 91922616714295440000, 92511824431471560000,
  93095583103953180000, 93672502583964270000, 94242353344968410000, 94804593758521940000, 95358217622618150000, 95902689032156270000, 96436542528604020000, 96957496054311020000,
  97465362230454000000, 97954333352217270000, 98423587671219050000, 98862962563703450000, 99263670168573810000, 99612958083798500000, 99877064243312160000, 100000000000000000000]

/-- color_maps.hpp:156, `extended_kindlmann_b`. -/
def extended_kindlmann_b : List ℕ := [
  0, 1626889466306607000, 3371323527689844000, 5129428731410766000, 6656239137344208000, 8040589852559868000, 9320787278502770000, 10546097842833466000,
  11852817788317130000, 13272649778802640000, 14810095572102710000, 16375632363209905000, 17919646921236213000, 19453816576504604000, 20969417559548320000, 22481531387354930000,
  23971058994822990000, 25430110979122210000, 26850817678211986000, 28238564749171374000, 29573128232180523000, 30860719320615140000, 32150398494229610000, 33424777423118057000,
  34680083232754255000, 35927335578767955000, 37134326387453810000, 38312596448241070000, 39459811123653640000, 40574237338264840000, 41624279308142690000, 42657105172679660000,
  43722636260958610000, 45114221228899770000, 46635398589957160000, 47217057965768244000, 47110682779300844000, 46785700711989780000, 46268236332653717000, 45587459214687760000,
  44774032508967526000, 43872150065438770000, 42897098209137450000, 41876425094848100000, 40835063647089540000, 39794947927856517000, 38774823408835746000, 37769118439599340000,
  36793281356267870000, 35850220954294890000, 34950979668273640000, 34086904530555970000, 33258778117137020000, 32474294907403245000, 31731795633577514000, 31022963838193685000,
  30347145918587220000, 29703484457819845000, 29095765923101685000, 28517017024142427000, 27965997882927580000, 27441390646690217000, 26941817318562980000, 26465853945560990000,
  26008624607226105000, 25537236409530106000, 25038669592493334000, 24512715790174772000, 23959178395846548000, 23377873816982180000, 22768632911662062000, 22131302646406403000,
  21465748025951026000, 20771854359069752000, 20049529942281590000, 19303372895005055000, 18524675366655605000, 17717467982889423000, 16881795823876974000, 16017753232003507000,
  15133715480703355000, 14214299485979426000, 13277234235578353000, 12304027310946478000, 11316410079747846000, 10305638071018988000, 9273371145052256000, 8221895294189338000,
  7154410587314339000, 6075492683846011500, 5016037872247533000, 3940886353210295400, 2996530118867830000, 2243055348767221400, 1907964373841540600, 1927104403025176000,
  1962705871350727700, 1960522175440221700, 1983755274392438200, 1998429281648217000, 2035082023697333200, 2061535207978936000, 2076563040362206000, 2078959224938569500,
  2101162274894712700, 2109277182885738500, 2136714777003024700, 2148701069909094600, 2179659002621885000, 2193914021868336600, 2190396156431214000, 2205101967372473700,
  2200991591468437500, 2215151687427033300, 2248212957085829500, 2261757765237555000, 2254949758448440000, 2267197720700133600, 2258649889609520000, 2269913839678329400,
  2302034933556348000, 2313701355469799000, 2304388017983812300, 2317225350439649700, 2309359581707615000, 2325212759648816000, 2320879552082323600, 2342105237850433300,
  2351307077213582000, 2474700862397102000, 2549307374643175500, 2623289589713698500, 2698278973250526000, 2819024072200311000, 2898178353065985300, 2979697562508809000,
  3104403215303277700, 3227150878455887000, 3304163325898518000, 3453054484001702500, 3546365096505891400, 3656485419201359000, 3811009681636004500, 3921665123224114000,
  4050450388709008600, 4177752341186975000, 4288218868653492000, 4430284134845760000, 4551268880435748600, 10485176035519561000, 14695621074226434000, 17919496865835138000,
  20542079832986643000, 22750885439024698000, 24632170224175154000, 26263686798960245000, 27694293299973330000, 28952513270643190000, 30061809181718560000, 31083965567414507000,
  32451652846536110000, 33966351784918897000, 35657580644261040000, 37534236971527246000, 39562556319119124000, 41693497643767774000, 43895884486921400000, 46139896139324615000,
  48416548522290065000, 50722964270523770000, 53026461509382870000, 55314330269836040000, 57582375903406960000, 59830335662764630000, 62053693312489140000, 64253515668277700000,
  66426394455786810000, 68572544970507390000, 70691261587970370000, 72782112189208550000, 74844869162469140000, 76875623109712950000, 78881379433758860000, 80853900203702610000,
  82791289142327780000, 84698386939493150000, 86575529522072260000, 88415064337271600000, 90215352652996100000, 91984182211956820000, 93711978120023750000, 95397232266607470000,
  97082437309367620000, 98066901054290760000, 98132538415050290000, 98202905372957890000, 98260419128905650000, 98310626040222190000, 98372530214694620000, 98411287404195150000,
  98458581761591930000, 98505333291694250000, 98555891685051930000, 98599323591706030000, 98623299881648940000, 98661874677373630000, 98703011062393440000, 98733358565289830000,
  98771979834639580000, 98804896909476810000, 98834369783186900000, 98862679683882390000, 98892127562866420000, 98925031493202320000, 98945468504279800000, 98973670109245040000,
  99012032101730190000, 99025463008841260000, 99053320363997780000, 99079095198063760000, 99104952319266250000, 99133124220923540000, 99165990219595830000, 99192754274324510000,
  99209695574193160000, 99231449945813470000, 99264023224613400000, 99286606522758990000, 99319442391686210000, 99345975183171600000, 99386658737848430000, 99408390161903980000,
  99431953198406200000, 99459729752802560000, 99493709407028300000, 99520119544145870000, 99556522761229160000, 99575334334448640000, 99594066152497120000, 99601694126062910000,
  99601744686903940000, 99609191395766950000, 99614245578940820000, 99630205870682380000, 99638565187501840000, 99652992019136100000, 99667696594724800000, 99679434722763780000,
  99701548268229650000, 99719211363728070000, 99748205547886580000, 99776399711298870000, 99810816387293550000, 99859826641037970000, 99917990807853830000, 100000000000000000000]

/-- color_maps.hpp:176, `smooth_cool_warm_r`. -/
def smooth_cool_warm_r : List ℕ := [
  22999950386952345000, 23451750918602265000, 23905139222321087000, 24360173659134410000, 24816908043486074000, 25275391815771386000, 25735670200733660000, 26197784353470820000,
  26661771494573344000, 27127665035716100000, 27595494696856954000, 28065286616048707000, 28537063452740463000, 29010844485334814000, 29486645703670583000, 29964479897013340000,
  30444356738064665000, 30926282863435410000, 31410261950970153000, 31896294794262160000, 32384379374653405000, 32874510930975565000, 33366682027256384000, 33860882618583127000,
  34357100115291690000, 34855319445627180000, 35355523116998860000, 35857691275940440000, 36361801766865330000, 36867830189698780000, 37375749956453747000, 37885532346808715000,
  38397146562736917000, 38910559782229387000, 39425737212145806000, 39942642140225487000, 40461235986281170000, 40981478352598490000, 41503327073558766000, 42026738264499460000,
  42551666369825586000, 43078064210382544000, 43605883030099185000, 44135072541910086000, 44665580972962020000, 45197355109112630000, 45730340338725900000, 46264480695769356000,
  46799718902218430000, 47335996409773170000, 47873253440890370000, 48411429029138214000, 48950461058876166000, 49490286304267245000, 50030840467626210000, 50572058217110580000,
  51113873223759300000, 51656218197885950000, 52199024924832120000, 52742224300088860000, 53285746363791190000, 53829520334594850000, 54373474642941530000, 54917536963720630000,
  55461634248336030000, 56005692756184720000, 56549638085557310000, 57093395203967190000, 57636888477919010000, 58180041702122940000, 58722778128166060000, 59265020492647960000,
  59806691044790990000, 60347711573533300000, 60888003434114630000, 61427487574164010000, 61966084559297820000, 62503714598238680000, 63040297567463470000, 63575753035389530000,
  64110000286109460000, 64642958342681680000, 65174545989987330000, 65704681797161880000, 66233284139609670000, 66760271220611230000, 67285561092531140000, 67809071677635190000,
  68330720788525300000, 68850426148200460000, 69368105409751260000, 69883676175697510000, 70397056016974470000, 70908162491577840000, 71416913162873300000, 71923225617578960000,
  72427017483427450000, 72928206446515830000, 73426710268348360000, 73922446802581440000, 74415334011475250000, 74905289982060140000, 75392232942023320000, 75876081275322540000,
  76356753537532750000, 76834168470932050000, 77308245019331970000, 77778902342658850000, 78246059831291110000, 78709637120158590000, 79169554102608090000, 79625730944042250000,
  80078088095334570000, 80526546306027480000, 80971026637317150000, 81411450474830380000, 81847739541197640000, 82279815908427200000, 82707602010085100000, 83131020653283850000,
  83549995030486020000, 83964448731125050000, 84374305753048580000, 84779490513787510000, 85179927861654540000, 85575543086676620000, 85966261931364270000, 86352010601321680000,
  86764318811025190000, 87199730018892460000, 87625516795744220000, 88041696784533790000, 88448286468542370000, 88845301270267520000, 89232755644623100000, 89610663166847230000,
  89979036615480880000, 90337888050753110000, 90687228888679120000, 91027069971156600000, 91357421632320420000, 91678293761398710000, 91989695862291710000, 92291637110081670000,
  92584126404663250000, 92867172421672260000, 93140783660876240000, 93404968492179290000, 93659735199382810000, 93905092021832170000, 94141047194073240000, 94367608983630590000,
  94584785727014440000, 94792585864054160000, 94991017970650520000, 95180090790032500000, 95359813262598600000, 95530194554417060000, 95691244084455940000, 95842971550606830000,
  95985386954564990000, 96118500625622180000, 96242323243425750000, 96356865859754860000, 96462139919360670000, 96558157279914360000, 96644930231105220000, 96722471512926870000,
  96790794333188830000, 96849912384287870000, 96899839859270760000, 96940591467219550000, 96972182447987560000, 96994628586313240000, 97007946225336940000, 97012152279544750000,
  97007264247161360000, 96993300222014080000, 96970278904886640000, 96938219614382810000, 96897142297316950000, 96847067538648100000, 96788016570973790000, 96720011283598470000,
  96643074231190130000, 96557228642038830000, 96462498425929700000, 96358908181641780000, 96246483204084410000, 96125249491081440000, 95995233749813280000, 95856463402926230000,
  95708966594318060000, 95552772194608150000, 95387909806300290000, 95214409768645160000, 95032303162210860000, 94841621813166500000, 94642398297286590000, 94434665943681360000,
  94218458838259660000, 93993811826928330000, 93760760518535010000, 93519341287557360000, 93269591276544630000, 93011548398314940000, 92745251337913170000, 92470739554332490000,
  92188053282003730000, 91897233532055920000, 91598322093351180000, 91291361533296980000, 90976395198439000000, 90653467214837110000, 90322622488227040000, 89983906703970570000,
  89637366326796200000, 89283048600332790000, 88921001546438420000, 88551273964325780000, 88173915429487270000, 87788976292420480000, 87396507677155970000, 86996561479590040000,
  86589190365622710000, 86174447769103010000, 85752387889583670000, 85323065689885270000, 84886536893472720000, 84442857981643900000, 83992086190533040000, 83534279507929300000,
  83069496669911940000, 82597797157303400000, 82119241191941480000, 81633889732771630000, 81141804471760490000, 80643047829632320000, 80137682951429130000, 79625773701895330000,
  79107384660689460000, 78582581117422500000, 78051429066526050000, 77513995201949790000, 76970346911691520000, 76420552272159850000, 75864680042372210000, 75302799657989360000,
  74734981225188530000, 74161295514377250000, 73581813953749710000, 72996608622688600000, 72405752245014520000, 71809318182086120000, 71207380425753800000, 70600013591170470000]

/-- color_maps.hpp:179, `smooth_cool_warm_g`. -/
def smooth_cool_warm_g : List ℕ := [
  29899893404937560000, 30586471825124395000, 31271835359723077000, 31955961659208860000, 32638823340267120000, 33320388462766504000, 34000620954660093000, 34679480991553485000,
  35356925336688080000, 36032907646260630000, 36707378744303880000, 37380286870769464000, 38051577905958480000, 38721195574026350000, 39389081627931050000, 40055176017889230000,
  40719417045144210000, 41381741502624314000, 42042084803879193000, 42700381101513020000, 43356563396190284000, 44010563637164980000, 44662312815173780000, 45311741048440196000,
  45958777662452927000, 46603351264108767000, 47245389810747423000, 47884820674548473000, 48521570702712050000, 49155566273800605000, 49786733350580864000, 50414997529670640000,
  51040284088264950000, 51662518028188460000, 52281624117498180000, 52897526929837620000, 53510150881725480000, 54119420267944200000, 54725259295178910000, 55327592114042360000,
  55926342849611180000, 56521435630584680000, 57112794617170780000, 57700344027791250000, 58284008164693080000, 58863711438543530000, 59439378392080780000, 60010933722885350000,
  60578302305332380000, 61141409211779840000, 61700179733043250000, 62254539398202560000, 62804413993784670000, 63349729582359780000, 63890412520588360000, 64426389476751200000,
  64957587447793390000, 65483933775910200000, 66005356164700820000, 66521782694913710000, 67033141839805600000, 67539362480134750000, 68040373918806920000, 68536105895191200000,
  69026488599122400000, 69511452684604200000, 69990929283226620000, 70464850017311090000, 70933147012794080000, 71395752911860550000, 71852600885336760000, 72303624644852070000,
  72748758454777860000, 73187937143951540000, 73621096117192940000, 74048171366619650000, 74469099482767480000, 74883817665521550000, 75292263734863670000, 75694376141440180000,
  76090093976955060000, 76479356984392080000, 76862105568069960000, 77238280803533530000, 77607824447284090000, 77970678946352030000, 78326787447713550000, 78676093807554510000,
  79018542600382650000, 79354079127990940000, 79682649428272460000, 80004200283889320000, 80318679230796130000, 80626034566619560000, 80926215358894220000, 81219171453156170000,
  81504853480894480000, 81783212867361220000, 82054201839239860000, 82317773432172840000, 82573881498147840000, 82822480712743020000, 83063526582230720000, 83296975450539270000,
  83522784506073130000, 83740911788389830000, 83951316194733740000, 84153957486426010000, 84348796295109170000, 84535794128846080000, 84714913378072050000, 84886117321398710000,
  85049370131268860000, 85204636879460240000, 85351883542437870000, 85491077006552400000, 85622185073083110000, 85745176463124600000, 85860020822314030000, 85966688725397940000,
  86065151680636380000, 86155382134041970000, 86237353473451960000, 86311040032430380000, 86376417093998450000, 86433460894190150000, 86482148625430270000, 86522458439732020000,
  86451403491503630000, 86269127887809880000, 86078669965996320000, 85880055667111970000, 85673311823724220000, 85458466149857850000, 85235547230659470000, 85004584511779880000,
  84765608288465280000, 84518649694347980000, 84263740689927360000, 84000914050730190000, 83730203355140000000, 83451642971882940000, 83165268047159080000, 82871114491404910000,
  82569218965673650000, 82259618867618800000, 81942352317064640000, 81617458141147490000, 81284975859009350000, 80944945666025530000, 80597408417545340000, 80242405612124620000,
  79879979374227010000, 79510172436368990000, 79133028120682490000, 78748590319867020000, 78356903477500570000, 77958012567677630000, 77551963073939110000, 77138800967457240000,
  76718572684435420000, 76291325102680430000, 75857105517300900000, 75415961615482290000, 74967941450285650000, 74513093413412710000, 74051466206875380000, 73583108813503450000,
  73108070466218580000, 72626400615997120000, 72138148898438150000, 71643365098845880000, 71142099115728990000, 70634400922610240000, 70120320528031520000, 69599907933629770000,
  69073213090147920000, 68540285851233310000, 68001175924864050000, 67455932822227760000, 66904605803863230000, 66347243822856600000, 65783895464866000000, 65214608884725440000,
  64639431739357540000, 64058411116696350000, 63471593460294460000, 62879024489254650000, 62280749113092120000, 61676811341091750000, 61067254185681230000, 60452119559290510000,
  59831448164111490000, 59205279374109470000, 58573651108567260000, 57936599696362030000, 57294159730086000000, 56646363909020130000, 55993242869854110000, 55334825003915520000,
  54671136259522400000, 54002199927903160000, 53328036410934200000, 52648662968724040000, 51964093444816970000, 51274337966497430000, 50579402617336770000, 49879289078734274000,
  49173994236749490000, 48463509749996520000, 47747821573754495000, 47026909434728564000, 46300746250050845000, 45569297483113520000, 44832520427650463000, 44090363410085304000,
  43342764898501834000, 42589652504602493000, 41830941862630455000, 41066535366352760000, 40296320741704970000, 39520169428451040000, 38737934739001780000, 37949449756134346000,
  37154524923423027000, 36352945272318790000, 35544467217440223000, 34728814836020950000, 33905675527607415000, 33074694924673165000, 32235470891970830000, 31387546409644240000,
  30530401078823033000, 29663440913597570000, 28785985982733997000, 27897255327778590000, 26996348395887820000, 26082221962646880000, 25153661146923556000, 24209242581295431000,
  23247287009925670000, 22265797397565007000, 21262376808227257000, 20234117434687338000, 19177447487857652000, 18087914808905534000, 16959872367321424000, 15786005774647732000,
  14556594662376940000, 13258300379739485000, 11872050682883606000, 10369043717312370000, 8702339888581809000, 6786174152286231000, 4430319728532283000, 1599182403398069500]

/-- color_maps.hpp:182, `smooth_cool_warm_b`. -/
def smooth_cool_warm_b : List ℕ := [
  75400013857559100000, 76021128784758200000, 76636137069511830000, 77244940837089390000, 77847443329274070000, 78443548918659840000, 79033163122783890000, 79616192618088260000,
  80192545253704780000, 80762130065058080000, 81324857287280400000, 81880638368433680000, 82429385982533210000, 82971014042368500000, 83505437712116040000, 84032573419740030000,
  84552338869175990000, 85064653052293770000, 85569436260634820000, 86066610096921090000, 86556097486330520000, 87037822687536090000, 87511711303504920000, 87977690292053320000,
  88435687976155910000, 88885634054003490000, 89327459608808980000, 89761097118356490000, 90186480464292210000, 90603544941153080000, 91012227265131680000, 91412465582574360000,
  91804199478210300000, 92187369983108820000, 92561919582363550000, 92927792222500650000, 93284933318609310000, 93633289761192610000, 93972809922736930000, 94303443663998200000,
  94625142340003240000, 94937858805764790000, 95241547421708660000, 95536164058811570000, 95821666103448680000, 96098012461949100000, 96365163564858810000, 96623081370909680000,
  96871729370693200000, 97111072590039090000, 97341077593097010000, 97561712485120940000, 97772946914955870000, 97974752077225760000, 98167100714222710000, 98349967117496500000,
  98523327129144480000, 98687158142801320000, 98841439104328470000, 98986150512203240000, 99121274417607420000, 99246794424215030000, 99362695687680290000, 99468964914824320000,
  99565590362522490000, 99652561836291460000, 99729870688576560000, 99797509816739840000, 99855473660749790000, 99903758200571990000, 99942360953262290000, 99971280969762740000,
  99990518831400770000, 100000000000000000000, 99999958044250490000, 99990168174398260000, 99970713698489320000, 99941602786934970000, 99902845113339630000, 99854451848945490000,
  99796435656787050000, 99728810685556870000, 99651592563183580000, 99564798390122860000, 99468446732363050000, 99362557614145890000, 99247152510404220000, 99122254338917310000,
  98987887452184820000, 98844077629021600000, 98690852065873080000, 98528239367853830000, 98356269539509500000, 98174973975303960000, 97984385449832380000, 97784538107761830000,
  97575467453500290000, 97357210340595530000, 97129804960864400000, 96893290833254280000, 96647708792437410000, 96393100977139060000, 96129510818200610000, 95856983026378360000,
  95575563579879030000, 95285299711632680000, 94986239896303310000, 94678433837038610000, 94361932451958490000, 94036787860382980000, 93703053368800280000, 93360783456574400000,
  93010033761392760000, 92650861064453270000, 92283323275391120000, 91907479416944080000, 91523389609355970000, 91131115054517250000, 90730718019841740000, 90322261821877310000,
  89905810809650180000, 89481430347739210000, 89049186799079330000, 88609147507490060000, 88161380779927330000, 87705955868454220000, 87242942951927150000, 86772413117393080000,
  86261614859855070000, 85713441169315530000, 85161744497944550000, 84606616833439390000, 84048150051125650000, 83486435898515400000, 82921565980015700000, 82353631741789950000,
  81782724456774350000, 81208935209851700000, 80632354883184760000, 80053074141711380000, 79471183418803480000, 78886772902092130000, 78299932519460560000, 77710751925207530000,
  77119320486382590000, 76525727269295510000, 75930061026201920000, 75332410182166750000, 74732862822107680000, 74131506678020110000, 73528429116386050000, 72923717125767930000,
  72317457304589990000, 71709735849108500000, 71100638541572460000, 70490250738577090000, 69878657359611230000, 69265942875800680000, 68652191298849120000, 68037486170178310000,
  67421910550269090000, 66805547008205230000, 66188477611421370000, 65570783915657090000, 64952546955118680000, 64333847232850040000, 63714764711315120000, 63095378803192840000,
  62475768362386560000, 61856011675250330000, 61236186452032800000, 60616369818541460000, 59996638308028520000, 59377067853300950000, 58757733779055780000, 58138710794443630000,
  57520072985861960000, 56901893809980240000, 56284246086999580000, 55667201994148600000, 55050833059418670000, 54435210155540070000, 53820403494202750000, 53206482620523240000,
  52593516407761590000, 51981573052290320000, 51370720068819560000, 50761024285880600000, 50152551841571780000, 49545368179570610000, 48939538045414880000, 48335125483058180000,
  47732193831702670000, 47130805722914443000, 46531023078025850000, 45932907105829750000, 45336518300570830000, 44741916440240010000, 44149160585177294000, 43558309076989240000,
  42969419537788606000, 42382548869761790000, 41797753255072630000, 41215088156109970000, 40634608316087356000, 40056367760003836000, 39480419795975347000, 38906817016946776000,
  38335611302795025000, 37766853822834884000, 37200595038739454000, 36636884707887840000, 36075771887154084000, 35517304937151345000, 34961531526947287000, 34408498639266283000,
  33858252576196460000, 33310838965420186000, 32766302766986616000, 32224688280648867000, 31686039153786477000, 31150398389938360000, 30617808357969667000, 30088310801901375000,
  29561946851429450000, 29038757033164536000, 28518781282624740000, 28002058957014960000, 27488628848829755000, 26978529200318080000, 26471797718851403000, 25968471593238060000,
  25468587511031116000, 24972181676877747000, 24479289831963270000, 23989947274604145000, 23504188882048950000, 23022049133548700000, 22543562134762190000, 22068761643565016000,
  21597681097335308000, 21130353641792360000, 20666812161469034000, 20207089311901970000, 19751217553628297000, 19299229188080813000, 18851156395477772000, 18407031274806854000,
  17966885886006054000, 17530752294447040000, 17098662617829208000, 16670649075593325000, 16246744040965170000, 15826980095738155000, 15411390087901955000, 15000007192220008000]

end DRT.ColorTables
