import Verif.Spec.Params

/-! # Inputs of `g1::mapToCurve` outside its contract -/

namespace Bls

/-- The inputs for which the SWU map of the first group reaches the kernel of the isogeny. RFC 9380 maps them to the point
at infinity. -/
def exceptions1 : List Nat := [
    861410691052762088300790587394810074303505896628048305535645284922135116676755956131724844456716837983264353875219,
    1006044755431560595281793557931171729984964515682961911911398807521437683216171091013202870577238485832047490326971,
    1282200428960417699336277706457103041857880658103225676682217209856122071106589819601289643542687514346532690166789,
    1477143750730742479059242772103449791277503746392013512537802423580814146283019455511682997430595384409679817881468,
    1562001338336877267717400325455189014780228097985596277514975439801739125527323838522116502949589758528550231396418,
    1575176923998869412532776039298450771881116864589013101651068123638915113652607670548729091460580079688736254283722,
    1627078508083490254318224556330168382612583685493102987037331932100530949593938800142015413725573270803374334213417,
    1731081574565817469321317449275278355306982786154072576198758675751495027640363897075486577327802192163339186341827,
    2271327980655849924096472376460625801249900033784935309133299460372536622850473967367201051801213471874555086217960,
    2375331047138177139099565269405735773944299134445904898294726204023500700896899064300672215403442393234519938346370,
    2427232631222797980885013786437453384675765955349994783680990012485116536838230193893958537668435584349158018276065,
    2440408216884790125700389500280715141776654721953411607817082696322292524963514025920571126179425905509344041163369,
    2525265804490924914358547053632454365279379073546994372794255712543217504207818408931004631698420279628214454678319,
    2720209126261249694081512119278801114699002161835782208649840926267909579384248044841397985586328149691361582392998,
    2996364799790106798135996267804732426571918304256045973420659328602593967274666773429484758551777178205846782232816,
    3140998864168905305116999238341094082253376923310959579796412851201896533814081908310962784672298826054629918684568]

end Bls
