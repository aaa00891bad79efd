/-
The files embedded in data.go:187-3524 (`_escData`), transcribed by a script: for each year of `/data/astro/astro-YEAR.json` the
fields `size`, `modtime` and `compressed` (a raw string in Go; its line ends are written `\n` here).
The ten files without data have the same text.
-/
set_option autoImplicit false

namespace Verif.Model

/-- Fields of data.go:29-38 `_escFile`; `local` is the name without the first slash, `isDir` is false. -/
structure EscData where
  size : Int
  modtime : Int
  compressed : String

/-- data.go:193. -/
def noData : String :=
  "\n\
    H4sIAAAJbogA/xTMwanDMBCE4VbEnMUrQEW8BkIwQpoQX7TO7AofjHuPcv1++C/4bI3uKKHJDEomlAvN\n\
    OlFwVo1t2NZrVGR0etN+xG5jxX9LP09n9STG1GBPL1OKNxd8Jj3+cGeIftjwNXw8728AAAD//9kuLnV0\n\
    AAAA\n\
    "

/-- data.go:215. -/
def compressed1902 : String :=
  "\n\
    H4sIAAAJbogA/6SYzYrcVhCFX8VomxbUz/1/g6yyiHYhi2asgGGm2+nuIQvjd88pOTggqYz6GrQYmKZK\n\
    9351TlXpy3B/f3mZ7/ehPW7v82mYb7frbWiX99fX03Cb75+vl/s8tD++DI9Pb/P9cX77PLRROMQSSyrh\n\
    NHw8P+YJ//v199+GNnAlGYnxTJwalabpF6JGNJyGl+tHhNLTcDm/4Y/h9Xx/fPj7/Xx7zLfh62mbgkNl\n\
    TW6KOgk3Dk3CKgV9T3GZ//nwdr1e9sIjPsVQvPCcJ0pNc1NZhefv4f/6dPvxEbRKlSxeDgmThY5NyiqH\n\
    /J8DKNwzqOQcSvTiKyjoQiF2UxCQjlT3U+AplgIglLsocM2RgnNDMnKcQDjGFtc39AQF1pwpkpdDZLkl\n\
    aUp9FChVVJOjBUWKialpbdSvBSJlLY4WdGSa8P6RIIceCor3VwnuCThNIo1lq+bjFLQUrjVnL4dpAYVE\n\
    TbSLghbmnKNzRcEcCXqW0Gh9RYcpKLSWuDhaCP9pwSh0aUFTZU6eWwTTglnFjls8QSFBzym7t2RaKC3g\n\
    Wd/SQQoxRnHtIoxKVkmxbK/oOIVQQwnVOUIcKVuKELegj1EImlPw+kIcORhkqJn7+4ICdUzZ0VtcKJAd\n\
    QdZ6O0hBavW1Fo0CxEw7WjtOQQInTrqfIuExuZnv5S4KXDSQuuFZJoHUwHkd/gkKDNhCzi0l/MJMFWOM\n\
    djoSYUoq2dEC4hcbYHAG6taC1FISZae1ZbA20JBbXLe2QxQwvBSh6jhSNgr8TWr9jiQlQm+eqeZRyCZJ\n\
    5Ng4xjEKkquk7FHORgGuakNGtxYka0QhOcVa0N0m9DUrpC4t4PWFxHOLMjLqFFOwbOeLJygkEhSTQxo5\n\
    qskZDVr7JlWJGGHYo1BGSRMzHPtnKIQCRyKnL1Qbwwx06ZyR4HcYVNmp07qsI3AL3ar5CQoaslTPVKvt\n\
    JHh/M751IR2kIGUZYbz4mMGsSnGM2k1BUK6V99sn07IYZltJaN0+j1FguAXRfp1a+Grhuf7MvmCOh5Vn\n\
    v5CQ49tmSFh5+mYkOEVIFPe1gPiiy4yEfaFbC9iqKNfqUsBiCAS2uHVRQBjCqOecgJdB2NapFtYnOE4B\n\
    AwBO4PQe5LDNEIWE1tDnSJwLlcxufMxglG0S3vS24xSybSW0b9xIocvWZqa3Nu5jFFLACBMdyMtqbhtP\n\
    3kJ+gkIsGqvuux4v+zmaQsBF9XVnxrZQ0R28+JjB0DqhNe7+gsEhJinOpypLsXxHwlrFRyj8+fXfAAAA\n\
    //8O8sRvNBMAAA==\n\
    "

/-- data.go:240. -/
def compressed1903 : String :=
  "\n\
    H4sIAAAJbogA/6RYTYsjVwz8K0tf4wZJT+/zH+SUQ/oWchhmO7AwY29sDzks+99TasIGuq3lzRuYw4CN\n\
    Cr1SlUr+Nt3enp/X221q9+vbeprW6/Vyndr57eXlNF3X29fL+bZO7Y9v0/3L63q7P71+ndoszKGkmks+\n\
    TZ+f7uuCz379/bepTVwpzMQzpUW4xdRi+IWoEU2n6fnyGaX4NJ2fXvHP9NeX6+3+6e+3p+t9vU7fT0cM\n\
    qRLVxeCwsDbOLewx5H8MNPLp9XI5P6ovqaYk4tUXWpib1hbKrn74Uf/l6ectcC2FUnIhysIJ9VvUHQT9\n\
    gDiv/7gd4ImIstOBzBQXpsbSaN/BO1igrCWKehgsC0rHDLLHWCAWlRjd+nWh1ESaxFEWqCqDBrcFydsz\n\
    1WMLXSxQyYVrdeY0mBZQm0OTcS1QERL1tBA2LYgxPagFyhBaDM4kBXxjIYxRbjqsBUolggV2IUA0N4Ec\n\
    6hALSSLGyCFZTQsoH6npnuR3sBBTDEEdOet/WjBH2su5kwWtWTi4PUALcNXAjfY99LOggWqqwYMwLQSD\n\
    0DzEQsiSSnXmKAJhwRBJ/IgjUWCimquHwWwtgAXiMRZETWtuD2CBo9kFj2uBc6bkyS3OgvUptnpkD9HH\n\
    AvZOLUSPyyd43rLZURMaZ4GixuittjQzLRTMMXhIC4QGlAM5T4T6xfaCaoujLABCQonZWT1plmgQWA2H\n\
    1dPDAtWSUsrBmdOM/W9qJj7OaTcLJoOS9ScYmFWYNmZpSAuoLxXT5NhFnjnbbhM92kU/CylTFS0ehKit\n\
    No0tyhALCfkiFLd8YHMk87x9+XewEFUyq8NCwd9ClvEaD7KgyGDYb159TgtFy0hxNCNZREKK8eRcZhEj\n\
    GuvzsNr6WAgxU2GHhWLLX1AbhvEBFqSkWL3VVkG2bWfA0H5WO1kQYc3FcdU6s257JzTdu2o/C5xgetV5\n\
    prrFMG2Bjs/Ux4K5tpuR6naObJ4twxmJUIoSp8evxLSl4WiOQftX6mOh1FS0OgkD9S0JW5IfT6qAgGsI\n\
    uxB2GKKFeoToYqEUZDDkMLf85hYBWX4/p/0slJztkR47BvOWhtFCPjpGJwuZoxbnKkR9S8IwbWzP0aRK\n\
    ELOyOlebQVRrgQavNsIxgrvWuZ1RHkEY5UP+QFIFBu5/pcdyZrE0zMUcg/dy7mRBE4JeenwVor4lYdzm\n\
    4fgrTD8LoeYswRkksRgm29VGQxmpBJwL3vLn7TTHHGGz9W/nP7//GwAA//+YPC7v1hIAAA==\n\
    "

/-- data.go:264. -/
def compressed1904 : String :=
  "\n\
    H4sIAAAJbogA/6SYzYpcNxCFX8XcbeZC/agkld4gqyxydyGLwe6AYX6c7h6yMH73HN2AA7e7jKyBXgwM\n\
    fQrpqzp11F+Xy9vHj6fLZWnX89vpYTmdz6/npb28PT09LOfT5cvry+W0tD++LtfPz6fL9fH5y9JWoSrZ\n\
    mFUelk+P19OG//36+29LW9gprcQr6UbWUmmp/kLUiJaH5ePrJ0jhKy+Pz/hj+QtFPjy/vr4s3x5u9akU\n\
    TSXU9024MTXTg75+1396vFw//P32eL6ezvdKcCKzWqMSXDbGEXIzOZSg7yVeTv+EJ6DsuRSP5MU2oZao\n\
    CR/k+f8b+nz+8RGIKRcPagjKbJyb6m2NMQrFTaxSrF838mYocdQfplBqVTLJUQnOG3Oj1DTNUCiV1dmC\n\
    PpVV0i5fmhz7dJxCKZaTit6voSizkfRZsDJHAY1knjnU941wBmrq0xRy52wpKoFZwDirN8pTFMzcIBXJ\n\
    gwKmWRNaaZ6CkShxQFpXxSyAgjaac6SS1N2iecYHdgHE2tL8LGj2RBSYXlrZ+jWhBB9Nb4yCUk6kFMkL\n\
    PBsIpBnNU5BU2Tk8gsC3pZNOxyMMUuAqrhpQsJ0CrgjjME+BObFGpmedQt87tfGxxBgFMq1uFsmLdHm0\n\
    ktg0heyuLlEjWadA9W4jjVHIDruoFKzOjE+3i65/XJ3DFHI1d6JgL+SVtc9C3z5TeyFjddoPTiDUl3+X\n\
    P57gJygUQJAS+DZqlJ4AMA509O1BCjk7uwSUC0D3WTOszumMlDNltRqYaukUAFqQkY6mOkbBUvUa3RDk\n\
    fc9ItaXjDf0EhVQVJQLXK50CMCesn6PrDVKAWXDxgEKF6W2cGiGDzVNQgx9xMAt15X21wZFobhbEDb0a\n\
    zALka98Lgiz/jlnAIJQa5fm6St4zjNz26iAFxmrOFmQw398juCIEmGMGG6dA7iWlwLh9f5KgWXGEo3GP\n\
    UaDEkqIU6XsQttY5H08wTsEcy62kYLX5noaRYbDd5t4LyHjax+2uPlNPwqw9Ydx00jAFqymT8f1r6iV8\n\
    dyQEjOM1DVGwUk0R8yJ5/m+z9YGep1AYbVTuOxJqdApAUPC8naOQE/JFuZ+2oY8kLH314207TcGckfOC\n\
    I/Aew/BeyLdRcoyCSWUKsjbkEcH6c8fe83a2hP2vft9UUaOn4f2W5GiqgxTQRp4jCrwqbXh2an0PBdVc\n\
    Sw2OIJ0C6f4LxtRewKvcKwWOBHlOPV9QRlidpyAknKJZkD0N174XZmeBk6RSY33ff+QpUB6k8Oe3fwMA\n\
    AP//igL4YDUTAAA=\n\
    "

/-- data.go:289. -/
def compressed1905 : String :=
  "\n\
    H4sIAAAJbogA/6SXzYojVw+Gb2Wo7ecC/Z+fO/hWWaR2IQvT48BAtz2x3WQxzL1HpwITqCqFM6eNFwaD\n\
    xNGj95X0bXq8v7xcHo+pPu/vl9N0ud9v96le319fT9P98vh6uz4uU/3t2/T88nZ5PM9vX6c6EyhkhIJ8\n\
    mj6fn5fF//v/r79MdcICOgPOoAvm6l9I/wOoANNperl99lBwmq7nN/8xXS9/fXq73a7T99M+PCKVkqLw\n\
    yAtBRQ/Mm/D4I/wfX+6P56c/38/35+V+kEOKWKYiUQ7CBVJFrWCbHPRvDq9T9AbJ/mEOS0R58bCE+xLx\n\
    j/iv5/9+QiaRlOw4Bc0gC7b4FWSEgiRlyRBQoBlpQatYqn6AghWCLBrmKK2RlCrrGAVjSVZyFJ9saW3k\n\
    lGmYglpizXicgmewxeO3fi1DFKR4jQSi8CgLeIWKZxinIJwKWECBVy1IVR2mwBnAKHwDpcWFwLZ/Qz8F\n\
    RnA1BymkaYG4kuxT9FEgwVSMovCuBX+BQOU8TgGzEEYUZNUCV26mNEYBSbRwoAVZtYAVvUTjWgDljBZQ\n\
    0NWRtCp4pUYocMkOQUsU3imAVdEqOEyBC0PKkal6jrz2qit6a6p9FDibY4bALrRRAKrirrq1i24KLubs\n\
    3Ro0krnimiNpq9QQBbc7ZA5eYDNC61M3DNq+4CcoWEqkKdCb50jrE3yAbvXWScEQk1lA2WbyRi2tk3hL\n\
    uZ+CCrNwsGAknz4LpgaatgtGHwWf/q6GQAsevqzh7UNaEGJCDRopzWhNzgz7Ruqk4DUqkgJHSisF76Rc\n\
    ZdiRmHJByEGZsm9ibbQBVt2WqY8CMViJ+sjD+2Sj6iBw20c/QQHNF0kJn4C6ADcKuyd0UoCSSS3Qc56J\n\
    m6v6msTjjuRq8OETyDnPvFoG0l7OXRSopAwUSa2sK5hDPpBaPwUqPj5LCUiXdpO0kwf2y3YfBcqCBTGM\n\
    7ztY6ySpMuxIlDIqlWA6l3aS+GjT7L00RCGRb2F6fC8grEchVZWPXG1kqtngmLTnaBT85PFeGrvaqEV3\n\
    w4jiO4X2BtyXqJ+CUko+38IUuclN3TK2Zeqj4CcVJghegG0Fc7fj/JF7gdoiZunYMTxH28O0yRm2jtFJ\n\
    gd2TlI8dz+MTrG/wDWPreP0UyBmwHY+elsLacStOYTt6+igQkrpnHIentoK5W/jFg+PTmVDQ/GKIciCu\n\
    J4/tD89OCpBMc0T5n9uc1uk8PBd8Dy6AdDwXcD3Pm3HL/qw6ovD7978DAAD//1gwceLREgAA\n\
    "

/-- data.go:313. -/
def compressed1906 : String :=
  "\n\
    H4sIAAAJbogA/6RXTYscVwz8K6avmQFJ70nv4x/klEP6FnJY7AkY9sOZmSUH4/+eUsc40N0yvW+hDwMD\n\
    VeiVVCp9nW6vHz9ebrep36+vl9N0uV5frlN/fn18PE3Xy+3Ly/PtMvU/vk73z0+X2/3h6cvUz0LcNJtq\n\
    OU2fHu6XGf/9+vtvU5+4kZ2JzyQz567Uc/qFqBNNp+njyydA8Wl6fnjCj+mvz9fb/cPfrw/X++U6fTtt\n\
    OGrNFTwRB9PM1lPpYisO+Z8DhXx4enl53sUXaaQU4pdZUEDrTCv89AP/8eHnJRRLJeUUUUieuQC/a1lR\n\
    0A+K58s/YQXWTFrRfXgBw8zSE3XRcRVMai01KAEcbabSs21LOKiCoghuEuGzzZS7pC51WAWlUnMktJwl\n\
    eQm6I/QxFXKqXHMAn/DN1LrgW8O/QQW0UaViEQdmAb3Ktec8pkJiS/IT/DIzd93BP66CKKtaSIFZgMqK\n\
    b01xTAWu1DIFs5DdkdBHlDq/YxaYm5UWzEJeZsE6o1cHZ4FMTFPQSfnM6irD8XTYkag1yMAhBWYBpkp1\n\
    cBaoSYZlB/C6OFLrbhjjs0DVTLQFewEc1XcPTJXG9gJVqilTiA8VUIB30hr/uAqY5loofCZ3pNqJt890\n\
    TAUrlJJxBJ/Y+9SnrY2rYPCMQgGHf7Nwh2mkNcdBFVRhSFEn2ZmTd1LKW1c9rkKu2G0WhBg7C7sjkfa0\n\
    DjHHVMjYz2JBHwG+LX1au6776A0qJG2tlaCE4ir49vR2HVMB8SLnFJh2WVTA3pF37AUSKSlF41ZcBeBj\n\
    9WzG7ZgKbDllCfYC4Kv3kdp79oIbd7ISlFDhq99LyIOORJkaU4vwGbsNEuCJeEwF9iYSge1FFEIz7Ehs\n\
    a6oHVHB4FrLIkQBfZqBm6TzqSOCoyq3WIEk2TwAY56QYuQEVgI8UXFOkQvuewRRnz7gKhUuRKGyDoi6B\n\
    nofuBcCbNrhq4KntLLrkFx5PquDQZhiFfcdgWi5D9GqBdY+poIhIbPvzDHy/ChV7E0IPq5AtKfO+qToF\n\
    DkOUgGca2AsOj5gnFML7UZj87tTR2xkcCDDJbF9pZs9h2AtZtwHjoApiLWfbnzXHb37zAD8NXm1OQS3V\n\
    vO9IoPDDsPo4b9bnMRWQgnGdhxV4BEMTte3d+QYVECS5BdsTHImWgFHGrjbHRwYTq/v4/93mvKggoyrU\n\
    phiFqFnFw7AnmLxt1kMq1NqMhMIKRHyaPWuvKziuAlaCaomUFldhOZy3Su+q8Oe3fwMAAP//fU0LFTYT\n\
    AAA=\n\
    "

/-- data.go:338. -/
def compressed1907 : String :=
  "\n\
    H4sIAAAJbogA/6SYT6sbVwzFv0qYbW2QdCXdP9+gqy46u9LFI3Eh8J6d2n50EfLde+60pDBjhek1eBEI\n\
    HHHnpyMdva/T7f3jx9PtNrX79f10mE7X6+U6tfP76+thup5uXy7n22lqv32d7p/fTrf7y9uXqR25lmy5\n\
    ZLXD9Onlfprxfz//+svUJq6Uj8RHyjNr09yS/UTUiKbD9PHyCVLpMJ1f3vCP6fXldv/w5/vL9X66Tt8O\n\
    2xJEllmiEqwzWbPSqKxK0PcS59NfH94ul/MjeU+VqeZIXnim0pSbppU8f5f/4/P1x08wL+zGYY06c2pq\n\
    TeuqhvxXAyjCNxglLzWgIEfyGbKGN4xTULWcpUYlWGbOTbUlHqKQCqeSSyQvNBO0rYmMU0jMzikgjRpl\n\
    Jm+iTdakd1IQYKAaUE7dC/920pryfgpdyyks0b3gDb+0LrGPAktS9hTJi8zEjamlPE6BzEWFwhrwQm0K\n\
    EDREIdeak6Wgk/RINjPaiButO2k3hVyTGWtYonuhNsLQW5fYRSEXt6KRm7V7QYCgNFm7eT+FXIirq4Y1\n\
    Fi/0uepjFLKqJg/0DSVmILC01d9PwYHaopFhnQKBAm1Hxj4KTlXQSJE8KGBmS8ZvnIIp5moJnyDL9uSy\n\
    baSdFLQy1xqsTofd+upEM21W534KKkpWAjv7kdGsoExbO++j0K2cJKAA+TqTNNNnJhK2miVshqiGWO9V\n\
    kOax7Zwl5cTRROqrp1NOum3U/RQYZkjR6smdAoYe+3b17KNA3WkpmEiQL90LjJn6xEQiFREPGil3CkgA\n\
    0h09RMGxn+G2gEJBDOudJJh4wxQcbiserU+UqH2oIsRsmnUXBS/qnCmgUI7svU/xkWycgudSkOeDjFSO\n\
    kmaW1ofSWEbyLG5UQwqJeoyU8oQX3M2ZNPBC7TFs2f6DGcmtJlEONls9Mvo0QRsRZpyCJcV2Dr5S7TcJ\n\
    npBkdC+4esUTgk6qSwaD/jNXmyshqepjOzMthyFhog7uBU9KuBce9ynkEYQhD8g0frW5ICT9oEa/DGvr\n\
    YXLQC8JsABHqY1zk5WobzkjOy9X2uJGYexgW6aA3Q28fBSpZJFj+kP/nKOxfaA35f1AgXAv4VlGNfhlC\n\
    GhljnWH2UTAsf08UUOAlCWu/F9IwBSsVIy8HT5DlJOkxdfAvGFYSrrb82M28nOYwAkA8sZ0NaTtRkJF6\n\
    jdpJm22H6k4KDsTQivSRhGVJGGnttYjC79/+DgAA//8lbpgK1RIAAA==\n\
    "

/-- data.go:362. -/
def compressed1908 : String :=
  "\n\
    H4sIAAAJbogA/5yYzWokVwyFX2WobbpAv/fvDbLKIrULWZiZDgzY7kl3myyGefecW4YJVJdC+eJaGAwS\n\
    up90dOTv0+3t8+fz7Ta1+/XtfJrO1+vlOrXXt+fn03Q9375dXm/nqf3xfbp/fTnf7k8v36Y2c/WkSTWX\n\
    0/Tl6X5e8Ldff/9tahNXKjPxTLoIN9Nm8gtRI5pO0+fLF4Si0/T69IJfptfzP59eLpfX6cfpIbznknIc\n\
    nmlhbb4Tnn+G/+vr9Xb/9Pfb0/V+vu7moJrca5ij9Byam/Amh/yXA+8U1mBGJCmsQdLC3kgab2vQn/Gf\n\
    n/6/BC1cPOX9FIJvodJLYB2ioCIlU/BCCF8Xsial8faFPkBBXKgYRzk4L1QbefM6RgEPRMwBBZnFF9Im\n\
    9thJxymwZM+k+ym0U+DSHM+UhyhQSkzuYfi6jpo08WEKVgEiRaS1zwIaVWrzsVmwqsypUBQfFFiaCiKP\n\
    UrCSIUgpSGGYuAVdhH59SHGIghUqOWvQpwgPtUhNudG2Tz9AISteqgSkbebUczi+LemDFFIuoi5RfNGF\n\
    MWtQvDJMISGYkkUplLroqaGKIQrubGIBZF8pcBNptoX8AQpWLHsKSvBOAV2k+ljCQQomXpgCRfJOAWGh\n\
    GON7wTSZJAlTgAJED730kOIYBQEIs7QfPs2U+ws5NNvGKYhS4RqUkGa21QGkR90+SIEhFzWinGZZ5UKw\n\
    OreUj1MA5IoywhTvkiHNxxSJtBhFyz8jwyKEpYBWHaagNWe0a7AX8szvNg+iMbYXtApZkrAGob4XsHp8\n\
    W8NhClpcyTVOgdUGyhlmdYQCPLBS1mAW+rR1/2LYC+OzoFlMigYGo8ws67xVtOsYhZSSSyQXpW9/UJYd\n\
    uThOwWsqWA5RCphhqDY80oPNO0bBpcBjBKNW13OEYF4aj+8FtQwbVgPFqOtNAo8EMzm2F9SYRUuwnWt3\n\
    wkx97+jwdlY1cslhCd2GWadgQ9tZERoH1X4FTJ0CoYn00V98gIJAuEswbz3H6oahGLadt4MU2K1fhlH8\n\
    fo/oamC2inecAu4d3FX7s4AU/STBXsP2GZsFEmbSfcjM3QgDMjYPbSEfpyAV7qIGjdRzrKLq+THHMQoI\n\
    nuDBAsq4zX3BoBnGYUv5MAUp/afuiypSyLraIBk2dLVJhtn2wKkiPCxY35w4n8cVSTI2T67BK0n3Ye//\n\
    hJGxWZAEhwEjFsXvFCCp0O3tEx2n4LlXsX/yIEU/SVACFGl78hyjgHPBNIIsqxH23ke0rSCk8OePfwMA\n\
    AP//ZgzJwTUTAAA=\n\
    "

/-- data.go:387. -/
def compressed1909 : String :=
  "\n\
    H4sIAAAJbogA/6SYzaojRwyFX2XobdwgqaQqVb1BVlmkdyGLyx0HBu7PxPYli2HePac6MIFuK5Q74IXB\n\
    cITqqyOd8rfp+vH8fL5ep3a7fJxP0/lyeb9M7e3j5eU0Xc7Xr+9v1/PUfvs23b68nq+3p9evU5u5ihq5\n\
    FztNn59u5wW//fzrL1ObuFKdiWfKC2tjaWQ/ETWi6TQ9v3+GlJymt6dXfJn+QJFPr+/vb9P3004/OSUU\n\
    ifRZF/aun7b66Yf+y9P19unPj6fL7Xy5W4JLrlKjEiILlJnx2ZSgHyXezn+FHUgmLZpDeV/YGpWWdCPP\n\
    /57Ql8t/t8A1lWJBCzKTLeRNtNG2hUEKLIkKhfqcFiBQ3x/ROAXKSTyXqITQwtRMGqdDFIisUPZQviy0\n\
    dmBymAIgZFMPWkgzrTXM9i2MUWAcD2tEOc0MyqmpNDlMgZ3QRElRCeFFaLVzOUKBixHjLoXy8EJuWppt\n\
    5R+gkEvNuQanpN0LaEF8f0qDFDJLrjnoQVcvaEvU0raHcQpmlj0Fl1W7F0i7F3R7WccoaE2ea9hB94Jj\n\
    oO4hP0BBJWn2gIJ1Cv0WocxBCsmqSeQFm1kW4abW9LgXEsHRrmGJujDsllrKhyhIKoKBEcl3CtykNN5u\n\
    tgcocHbUCXZPBuy1Rm603T2DFJgKO3Okz7xO1dSoHqaA5emZgmNCibJIalIxV49QoOqk5uEJifV80SEf\n\
    386Eq5TDuV0w+LoXuB7dzuSGEGbB3ikzY1zkZtDf7p1hClQqUlgKvFA6BWxnxUU65AWCExBfwhPqFLjL\n\
    79z8AIVs1XPkN0cU6xMDUWyXJAcpZJKMkRTq+0qZ934ep2CpVC0SlUAAgBcQMMQPUVBsfufACz6L9nxh\n\
    GUHyOAWlrDlabT4nTAwsntpku9oGKSQst6yBfl3fI7XvhV3OG6cg3m9s4IW6PkmsrzY95gVh7lE1ksdz\n\
    hPva/F8TiS2RSjC3UWNdbRgavJ3bgxSoqmu97wWmTgHioLB7FY5TIDGhYPWgBCgAAd9ZPSMUvFbLRsEJ\n\
    Qb4/CkvrcX4rP0zBK6pgOd/PYb2GL9KTduNtDhuiAP3kGNtBD9y3PyZeKvseRil4LQgYKd0f3CiBMIwz\n\
    4rIf3GMUChCgj0i+PwrLmuUPv9q8ZlVnimusadhwUIcmklfznsICfekU8ObpF/XoREIJPKo4Ai09DGPo\n\
    2R3QYxRwQGrBfzy8Ps3/gbxz8wMUUocdXSTUyP2uIuaNvdp+//53AAAA//9yxWZv0hIAAA==\n\
    "

/-- data.go:411. -/
def compressed1910 : String :=
  "\n\
    H4sIAAAJbogA/6SYzWojVxCFX2XobSSov/v7Blllkd6FLIRHgQFbmkgyWQzz7jnVgQm0VEPrummMwXCK\n\
    21+dU3X9bbq+v7wcr9ep3y7vx910vFzOl6mf3l9fd9PleP16Pl2PU//j23T78na83g5vX6e+59pU1Arl\n\
    3fT5cDvO+Nuvv/829Ykb0554Tzqzdqmd7ReiTjTtppfzZ0jpbjod3vDL9Hq43j79/X643I6X6fvuroQk\n\
    a5osKsE8M/dE3fKqBP0ocTr+8+ntfD49kudmrVUN5evM1IU6l5U8/5D/68vl50dg1VYprCHJj2Ctp3UN\n\
    +b8GUIRnoGyt5vZYX/C6PigkHqVQW2spk0QlmGbiDtZcRyjUZmzVOJTPM9eu0rUNU6i1lGK1RjXEZtKu\n\
    qbMMUaiVCpUS6OueoF960m5r/e0UiiUyoaiEe0GcAtEQhVxLTimgoO4F/0KlywcoZGFONTwCvCCL32R9\n\
    hI0Ukn+hEnjBPJEga7XbuBesMWcLQg8l2iywW+ppHXrbKJjiidxsixesA8Sdm5+goNksp6BXzb3guS14\n\
    xyhIS0ocdFJaEgn6DaE3TEG05FIDCskpUOqKfh2jwKUaWYnkQYFgNSSSjlNgqgRHRzU8kXCE1nnQC2Sc\n\
    NIcUlGdHjE4aplCat2sNPlPeU3HQnJF7IxRKEyk5OkHeM/o0Y+bcn2A7hVKTiKVgtOW9iCcSSMt6tG2j\n\
    gJFQC04R6StGp3VFIg3vSKUo4UewIxVUWRIJoTq0I4FARicFfVqcAtUudt+nT1BIrQhrWAMUUAOzJ415\n\
    ocAI2jigDH3ERUNWYDQMU7CSW6lBcFc4bqbcNd8H9zYKRi1xNBfqntUTCcI6PheKmiC7AzvXvdDMiKOE\n\
    8TNGQRCqGm0Y0C8+20CBxhNJ8LRo9LTlSlI7HHc3erZR4CQmGvRR8xUMPkMr3aXFExQIiYGFO6zRPDGw\n\
    Scqa9EYKpOzLZKT/3w6WsAmvKW+mkFvOCVvMwxLLprfYmQFihEKuLSVUiOR9EVbP1JSGKeSqVimws7/V\n\
    exVrHo9RyH4dweCJ9EEB09/cbsMUCrVCFhyBfQ3DrQ2gxxIpI1ExeALIvFwKk98771awJyjgroDb7WO/\n\
    eY3i+zwo0Nh0zhj+2iIKuJsvcQHQH6CA5UJwYXhcAtdz9unMCO6h6Zy1ak38eJd3+eaZ7YG33uWfoKCS\n\
    JXF4BL+T8FJjfYSNFCSnZsH/kaDvFPz73HdSROHP7/8GAAD//+4kSVfVEgAA\n\
    "

/-- data.go:435. -/
def compressed1911 : String :=
  "\n\
    H4sIAAAJbogA/6SXy4ocVwyGX8XUNl2g67m9QVZZpHYhi8HugGEuTncPWRi/e/5TThyoLoWaM1AMAw0S\n\
    Op/0/9LX6fr68eP5ep3a7fJ6Pk3ny+XlMrXn18fH03Q5X7+8PF/PU/vt63T7/HS+3h6evkxt5pJYqhiX\n\
    0/Tp4XZe8NvPv/4ytYkr80z4ykKpcW0mPxE1ouk0fXz5hFB8mp4fnvDP9Mfny/X24c/Xh8vtfJm+ne5y\n\
    UOZEiaMcbItIE29aNznkvxwo5MPTy8vzbnwqkimML9JrEL6Prz/iPz78bwleNVe8VJRCaSG8kTcqmxT0\n\
    I8Xz+a+oAi/ZtXpAQWZKC3uT3GScghdOyVOYg3Vhapobb3Mco+DZiTjqJJmFF9Jmdt9JxymkImTF91Mo\n\
    QCyIrNzchygkEWYKICN8XkQboY+2kN9AwfvEsUU5+ixo89IojVGwyrWWsAbR/kSSkGKYgklmyTVKgVlg\n\
    wRs14yEKmiqlHPSR9VkgB+F3zYKSW5KgkWydBWsK4ds20kEKolahSlF8zAKXHl/HZ4GzEmoIU5R/RXVM\n\
    kZghSinth3d8C2vD5zZOgawqSdBI3ilAt6Grum2kYxSs5kpcAwq+KlJtGLe7TjpMoU9bYsthitU+xfBS\n\
    IxSsJGHNtB8+Ydo6ZMiq0zAFy4BQPSCdZuYF1ukE6R6jkMVUNaCA+HURas6Nximk7mxRI6VZ0tqsO410\n\
    jAIWGJcofO4U0Ed74d9AwTXDPAPSuVOAqDoMdEv6IAXLlDzyndwpQFVhnbL1neMUjNUlB6KaZ/EOGlXQ\n\
    kDubOpccVVC6+fdR3nHON1CQwk6RtZWZsebJ6j2DiiScU+XgiRA/d8oMCtsnOk4BqzblHCzDZRZbqMtR\n\
    s+0yfIwCpELMgz4ts6JP13uB36FIJPBmD0jXfpNgG/Z836vHKGhNTqUGNdSZ4W25K9Kdqh6moJU8FwpE\n\
    tfaT5PuCoVtRPURBC86R0NnquoJBUNN7rjZFE0kJ9jCm9TK0dZzH7gXonYDEPgXE/74JGyiPUwBntbQ/\n\
    bkjRD0PDyTZ4L6gXUpb9FQzh+1EIBNx4/F6A6CW3ElDgfy5DK/eb5EEK5ogUUeB1B+sI7n3nOAXF8Yy/\n\
    UQqh7guGTSwPUVBYM+WAAsLD2RiDcH+av4ECBImo7o8zr/d59wUe3ZG0n7Uk+6KN+CxdkawL6zAF1mRa\n\
    9q0NKUChNxIMemhHUkqJaw5fCIswLh5MMx2+F37/9ncAAAD//1HeBSbWEgAA\n\
    "

/-- data.go:459. -/
def compressed1912 : String :=
  "\n\
    H4sIAAAJbogA/6SYy4ocRxOFX0XU9u+CuObtDf6VF66d8WKQ2iDQzMjdPXgh9O4+WcYyVFWYnPJQC4Eg\n\
    gszv5IkT/W26v338eL3fp/a4vV0v0/V2e71N7eXty5fLdLvev76+3K9T++Xb9Pj8fL0/np6/Tm3mokQ5\n\
    iafL9OnpcV3wf///+aepTVxZZuKZbGFtUhvZ/4ga0XSZPr5+Qim5TC9Pz/jH9BuafHh+fX2Zvl+29aVa\n\
    FdGwPvNCuZk029bXH/W/PN0fH35/e7o9rrejFiWXkrSGLerC3Kg24U0L+tHi5fpHeILC5Ll6VF7yQqU5\n\
    CvumPP9zQ59v/36E7Co10XGP/i2izXMTOkchVXFijuozLShrFd9pCkk4cQmuCS3KQt5Mm26vaYyCexLK\n\
    EpUXXxiEvUk5T8FqKVntuIfiWxi3BC2lcxRMHUcIhKqdAs7g1nQr1HEKmpytBKC1UxBp0KtuQY9RUJLK\n\
    rlF5SQtp61LK5ymImYRCMjy59QgHQhqkwDlbjZSE+rALyEibbZU0ToGpZs7BNdnMuTuSUZPtNY1RICe4\n\
    UqAjm8W6I1naG944Ba6l9vdw3MM7BbwFLk3kFAWuQuIluCLvFODYnmB6ZylAQ65w7qgFpy4kTDc7NRc4\n\
    14y/wLN9FriFNVySbj37HRSyarVIqz4r9bkgZa/VQQopaao1OEOaCaYtTUFhe4ZxCokAIhJSmtkXSv25\n\
    7YQ0RsHNSuXAs9MscAsgKHvPfgcFy0U5viWpPSOp7kkPUjAqpBxkpIxv4QTE+ww2TkGtFIsCQJ55jXn4\n\
    6NRcYEwF4Wiy5U4Bw59z8//gSIIcWWrcA45h/S3sXG+QAuYaQlg+rl8AutfvjqenKVD1gqQXtWBZA0De\n\
    P+cxCqTJkgWTs6xBGE/Z8Z2mQDUl5JhASKWn4X4ERLGtkMYoEAhjOgeU69/7yIFpD1OgYmKpBqOnritJ\n\
    n/4npzPlQs4eQK5rEM495dH5pEqZiVIJTLX2HIaAoXhy56YzQUd9Zzisz9STMFy1X9HpjEReino6Bo0W\n\
    PQxrz0i7MDxGwUWNAp328utkw+TZGd47KJgbKx8LCT16Gsb05L2QBiloVaxtx5SZ+1bYY3DZUx6noP2P\n\
    j0dbb1HXa7J9ABijIAlXlMIT/BXBsBT69gTvoIComizY2tADaRiux2hzbmsjjGc8tmNXXX8CWH9e8P0+\n\
    Mk6BclavgVi7ry6YnRDrbj0fo4D6iGGBTmWlQL28nt7aMlwbq2cOKMi6k2CxxcpzikLGZp44WWAXsiZh\n\
    6pSHd+dfv/8ZAAD//zeCYDk1EwAA\n\
    "

/-- data.go:484. -/
def compressed1913 : String :=
  "\n\
    H4sIAAAJbogA/6SYzWoc1xPFX8X09j8N9XU/3+C/yiK9C1kMcgcM0owzMyIL43fPuW3iQHdX6LmyB2wQ\n\
    qtKtX9WpU/o23N9fXub7faiP2/t8Gubb7Xob6uX99fU03Ob71+vlPg/1t2/D48vbfH+c374OdeRUslAI\n\
    RKfh8/kxT/ja/3/9ZagDF9aReKQ0MVXJVeh/RJVoOA0v188IhW+5nN/wn+Ey//Xp7Xq9DN9Pm/DJimkI\n\
    XngOE0dErRZW4fln+D++3O6PT3++n2+P+baXI+ZCmdwcIhOHqqWGdQ75Nwfq5L4hKgf8deOXiVJVq1RW\n\
    8fVn/Nfzfz8hIEfhtJ9CRooThSpcRbsoWJEi5kCWkW2iXFWqrSE/QcHUUpbi5RCeSCo+gfsoaIokxaGM\n\
    +GlCfQCa1pSPU1AKKee4nwKfPCEysgTroiCaCokDWdssCNUQK68hP0GBM8XoVUmXWcDPv1OlgxSYS2av\n\
    k7TNAgNx2nbScQpkuQRyGsnaLDDi58rrRjpEIZdswtEN32YBapG24Y9TyEViDOIoho1CrVcV7bpWjGMU\n\
    0KNKkR0KiI9GhapC8bopZEwDK+X9FGFRJCwFq0G6KCRlC1m98KytT00Bop9CTIJ5dnOAAnQb6yescxyk\n\
    EClSYLdEssgFWbV1iY5TCJoN/+yniGA9cWnjRn0UDANt5FQojsxtO2v8EAVjWAx1n8C5jXOQbZUOUlAr\n\
    WM7uG+SHXGB1rt9wnIJkC5jn/RSpUaCmqBClLgoiMSXPX6SRf6hFqrJWiycocFSx6Oye1Cg0xYDwrXfP\n\
    QQpUJIk5qpoahSZHZauqxymQMid1UmR4gH9WT9degFXVXIoDGeHh8mDxFF64mwJ2WwpCDuk8cmwOQDBv\n\
    fXsBw5CIPRuZRwlNkTjjGb0U2p8czBnnPCq3J6BZtUuRUhKi7PVRWc4RbX26cZFPUIiBKXs+rCw3CeRo\n\
    x4cdpBDaTeV5sDKKtvhKH3Cq6CJTUsepllGpNSusJHU51WTRSoz7kJkaBcJ2DlvIT1DQYoJSeTlAoSkS\n\
    VK9vLyQVkBbz4sMJi7S9E2I3BUmk5EhGSwEzbMvt3LUXMApZQ9qfBcZpjj7F1aZbwXuCAmsKLmluPky0\n\
    ol25kwI1zs5tjvjtKkytUbV/FohDYmecW4q8NCtvx/kQBRxTZMG5a1kWCtbWzgcUKebMcNsOBVncMAwG\n\
    b23eMQpxcWDmUJDmhOHzkGLzG5LDFCKuc43eOC/neStTOeZUf//+dwAAAP//R4xJu9ESAAA=\n\
    "

/-- data.go:508. -/
def compressed1914 : String :=
  "\n\
    H4sIAAAJbogA/6SYzWojVxCFX2XobSSo3/v3Blllkd6FLIxHgQFbmkgyWQzz7jm3DRNodYX2HWODsaHK\n\
    Vd+tU6f8bbq9PT+fbrep3a9vp8N0ul4v16md315eDtP1dPt6Od9OU/vj23T/8nq63Z9ev07tyDmlypWN\n\
    DtPnp/tpxu9+/f23qU39h0fiI9nM2ig3o1+IGtF0mJ4vnxGKD9P56RXfTH99ud7un/5+e7reT9fp++Ex\n\
    hzi+SpSDZSZvVJvKKof8lwOFfHq9XM5b8RG9eOEwfp0RVqlxXcXXH/Ffnv6/BCfjKhalkDRTampN0yoF\n\
    /UhxPv0TVmCqyTnokBxJZ0YF3GTdoQ9Q0ExJKUU5mGbOvQS3MQrKSjUHLUL8PAOxaLN1i/ZTEMtqFqYQ\n\
    76BJRil0EJJ8O7weyZd3Ko19nAJzEqZg3nSZBWtcmqznbScF8lK0hjVwmblimButa9hNwWslSRpQ0D4L\n\
    +Ps76yEKXoW8Zt0Ob8ssLBVIHqbgJYm65yhHnwVFAjzXIQpeSEuxsIY+C7k5Huq6hv0UsqpTNG7WZ4G7\n\
    XjQao5BSYtdALbxTgOChQ7ZWiw9QSFTwlAIKyFFnQQnYC4MU3AqnHOwFP3Ka0R9Gi4b3glvOlilM0RVJ\n\
    FlFdp9hHwVhK8mAvJGyema0r0k/sBccgAHRAGjlKVz2sBh7bCy6VC0mgSOnI3mvASOu4Igk+zCRKIZAM\n\
    h7toWoYocCLNGoZX6ook1mQd/gMUmLhYCRQj47MrkpdHxdhJgaAWzgGF3ClAkbrDGKZgNeVUPUwBCn0W\n\
    8mOKXRSsUhHmQPAQHmqBDvHj2tlPwYpls4h0AezFSdZH0vsoQC2KiAaUy5Gtx/cEwz1MIbNCVwPJKEeB\n\
    ZEAvMNFrydhHIbkXi5wqwpfuXxwnw7giWbcAOXIAdblJoHobDmAnBRf24jWKDw8GubPaiIcpoIacctCm\n\
    2k8SrDYo0kOb9lEwrE2S4J3WxYL12BCMcQrwF/1028zB1ClgL0CRHnLspACnrR64bcTvTriv/ubjitSd\n\
    JE63MEVdrjaI0tps76PAVqTW7XeK8Fj+8BemP+NUjXLJJbjPGfe5dNXDWx28F4xws2nghBEfThjxdcMJ\n\
    76aAa4RrKdvj1lNgtUHxGNo9QkFLFWzngAJO8+U/GKjAxikoNo97cDuzdAr9ZMNEj3kkhdMrJQcU3m/z\n\
    d7kYp5Bqv5+3FYnfz3MMAiZ6SJE0dX9Rw/CgQKVf//ud6p/f/w0AAP//jMYEg9YSAAA=\n\
    "

/-- data.go:532. -/
def compressed1915 : String :=
  "\n\
    H4sIAAAJbogA/6SYz4pbVwzGXyXcbX1B/87fN+iqi3pXuhgmLgRmxqntoYuQd++nS0nh2Cp3ThMvAgHJ\n\
    Rz/p0yd/W67vz8+n63Xpt8v76bCcLpfzZelv7y8vh+Vyun49v11PS//t23L78nq63p5evy595aIpW2Iq\n\
    h+Xz0+10xP/9/OsvS1+4cVqJ8TmydOGu+hNRJ1oOy/P5M0LJYXl7esU/lj+Q5NPr+fy2fD/cxyeqxi2M\n\
    X48IztqJh/j6I/7L0/X26c/3p8vtdHmUwkxyazVKwenI1k27yJCCfqR4O/0VvkBLrk05Ci96pNSVO7Uh\n\
    PP9boS+X/36CUqVcKMqhfCQ8QTrTHAWxYizpcXxZqfgbGCDSNAWuhbMFjSQrmz9B5b6R9lFgrplFovAi\n\
    R5KeSk91ngIlSdz0cQ7dZqHi+3cpUxSkNROVYBbUZ8FnDW+YngVBo7JR0Ky6zULzWeCxWXdRkJqpsYTh\n\
    MQsi3fCC+VmQ0vBXgnHWbRYwb8gxjvNOCsWo1hQ0qq2Uj0LdQYyNup9CLlazBs1qPguYNc2dxmbdRyGT\n\
    SW3BNJvPAqNCtcs4zR+gkKCqtcQ5mosqxsHGHDspWC0kLeik5BRAGavBxk7aT8EYmLNFKVyRtCsBxBQF\n\
    tdpqpNlpUyRodu1p1OwPUECFWKNxRo5te2L36FilnRQgR5ZSfhw/A/SRs5fIbJoCZ7FsQZnyyuKimjAL\n\
    Y5n2UaBmrdRALfIq5H0q4DyqxQcokFaYmKCRkKM4aUl4xRQFbqVQjRxGcQqYhST/Yxa4UcafgEJxCtS6\n\
    tEkK7BavaVAhhG/ep1S6jRXaT4FLhYnRoFfLKtm3p79i7NWdFLyXOLKRFSbD3yAZNmyaQk4srQYU6srk\n\
    6zNRlzkKCUuhUrB2EL66R/KBnvdInJRKLmGVxDZFqvdV2knBtSJFJWqbBzP3eXeNup+CtmycgycgBVYb\n\
    OYU7ydhHAQcDt8hftJWx2QoIw4XNU5CSGtdAMdp2kzR3qpN7gQXXiASqyuQUEN9wMszPAkMy0LBhim21\n\
    GZzYaIb3UYBgS5PHaoHwboQVRrvzqBYfoEBCBNWIcjgFfH+YgLmrzVebpsBhIP4/VyEadXoW4ISLX5+P\n\
    U/B2GJatTFOKhK0Gq8pBH+E0x72A0x+f+e0MOVLBaRjlEChGcbMto+rtpJCbgEPQqOxOGKINPz//CwZl\n\
    VbiYIIW4GYZHQplsahYolaTKj708woMCb5pN8/cCJWSB04tyyPY7EjzMpEcibP5Mgap6/LbFh4HZe7X9\n\
    /v3vAAAA//8nTKizNRMAAA==\n\
    "

/-- data.go:557. -/
def compressed1916 : String :=
  "\n\
    H4sIAAAJbogA/6SYz2okRwzGX2Xpa6ZBf6tU9QY55ZC+hRyMdwILtmczMyaHZd89UhM20DMyPbVgjMEg\n\
    jeon6fs036bL+/Pz8XKZ+vX8fjxMx/P5dJ762/vLy2E6Hy9fT2+X49T/+DZdv7weL9en169Tn7EC1wYG\n\
    7TB9froeF//fr7//NvUJG5YZcAZdQLqUzvgLQAeYDtPz6bOHgsP09vTqf0xvx38+vZ5Ob9P3w214bICV\n\
    svBIC3Dn2sE24fFH+L++nC/XT3+/P52vx/O9HCSGQmkJBAtYp3ZbAv2fw98prQENrTRJ49viYVk7lE18\n\
    /hH/5enjEpBE2OB+CpqBFywd/JlgiAIUrKjJC9GMsBB1gi7bF9pNobTWEIE4zdEWoJVCHaHg8cmQLY1P\n\
    ZYHWiW/j76VQmlMuIHo/Bc8g0azaOuoABQ8PbNWSPuIZcUHr7BVs++gBCpUVFTDN0RasnaxjG6NQqkIp\n\
    aXyn4I3qzXQTfz+FgqKmCQVx1v+loDEKKgVBEwoSs4AS0yw/QUECtSVbz3P4xvB14bC3W28nBSEiack8\n\
    y0wS88y+9LbzvJ8Ca2PAcj+FBgUvwcdZZIgCWQOAZJo1KPjzhOxsp/kBCkRF/XeaowZpxC6DFOKVAJNO\n\
    0qAApUeveifhGAUELpo1q86Mi29tl8+bFPsoAFOrGWT/aaFsah1kE34/BfOVxJD1aplRo1cFV+3BxylY\n\
    Q7VCiXSWmWil7BRglIKZ1PJBCvaV4Z+fV3V+nILVaoiSvFCdwRakrtGq4xQquU3CZKnWoODjzD7OOkbB\n\
    NaFAZiNrUAiPxLc17KegTho5GecaFFydnTXZEAUlIYUEsjnn6NNY21vID1CQUkGyEmxGXkm32xJ2UhAo\n\
    XkWizhZOGN3ARIphCszqypOAtjDDbmLchtEW9D4KVNEdWFJBW88Rlx1X520FD1AgZBfQZBZa+DDC1akO\n\
    zoLPcinZzdNWJ1zCYdxQ3k8BarMPnolqyCeH3x6iECcPJS4SIYwwQvSpbl3efgq1qR+ebFkOp+CvFLNA\n\
    Q+pcrRG4QKfxnQKGB6Phe6EauVO1+43kKdwM03oYjt0LtRaFlhyFiKsRrl1hVbZRCvEFgOD9cY4cLUoI\n\
    9Ry6nUstLJDZSI/vHsxnTe/YyP0U3OMVKmkK0tVKmivoEAVF9PAJZFqNsFeg67YYpSBSqSR7O3K00AWh\n\
    23nbSYGr2xdOawgn7CavuLwNU2AU0+S49RRxkvgsRC/toPDn938DAAD//xzRKebREgAA\n\
    "

/-- data.go:581. -/
def compressed1917 : String :=
  "\n\
    H4sIAAAJbogA/6SXzYrkVgyFX2Xwdsqgn6v79wZZZRHvQhZNjwMD3VWTqmqyGObdc667mYBtBdcN9KKh\n\
    QLLup3MkfR9ub8/P8+021Pv1bT4N8/V6uQ71/Pbychqu8+3b5Xybh/r79+H+9XW+3Z9evw115Jg4l5xY\n\
    T8OXp/s84bdffvt1qAMXTiPxSHmiVANXSZ+JKtFwGp4vXxBKTsP56RX/DH8iyafXy+U8/Dht43NRsuLF\n\
    5zgx1yBVeBVff8Z/ebrdP/319nS9z9e9FBRJMicvhWgrQUsNukpBP1Oc57/dCogEodwKlCbiir9NBfzv\n\
    C329/mcJsWjLkfdzyEhpIq2SK0kXhZijxkDOE8nI1mowrbx+osMUYgblIOalEJ4Y31+qWg+FmIKVFIMb\n\
    Pk8cQbha7KeAJAV17OfQpgXBK+UaqI9CpCLBo6yLFqSqbikfp2DGmdh5Jl20ECrFKutnOkYhZNiFOH2k\n\
    TQtMVeO2jx6ggBeKJfN+jtC0wMBMlUsfBTUrYtGLz6FRBggJn5uweygIWjV6oMOiBav0DpofpyAKW1L3\n\
    haRMjTACl1X4Byhw1FDYkbN9OFIINdgqx0EKTKrB05o1CiQ1vGutkwIFFSU3BSggMlLIOsUhCrCjYFEd\n\
    LdhCAVqQZex0UrBCmDzikI5IMzHknKqtSR+jYNkYr+TYRRxZPkZns4s+CpZyFiuOFpCiLCVgunVpwbDA\n\
    kBRnOsdR4BapUl6mcy8FuKoZOTtSk9wk0nYkTX0U8Dwhe5TTyNwcD460oXycgqnEZI6cU6PQ5gJt5XyM\n\
    Qogiam4FoNC2SITvdyQLJFLYyZExfprrYZmUTi1oMFZvw0D8MglVS5X7tSAJkvaMO4+MZi27xn2MglBb\n\
    593wYq2CpoX/QYExFcibzgULcetVbKraSYEKWUyOXZTlHsEaaVu7OE6BhESTYxnl4yQRuMbaMg5RCMUk\n\
    q6fmMgommzW32OwvxymEXJopOb1a2h4G0gq9rde8YxRChhgw3HbjM7XpD8dra9j6KjxMIaSoWcv++EQK\n\
    UGgLAIJ3XW0hltZI+4aH8FiEMXYUal6fIw9QwKpq0Zk9yNEuQzhS3l6GBylYSiKyrwXGbR6X2Ya50H0v\n\
    BKNkxTE9pMAa1r7/3fQ6KASsSDE7fcRtBUMfNbdY99EDFDRDCkncHLmVgEaS3EdBuZCW/TWSZaEQmhZ0\n\
    fRUepyDGiZy5gBRtGS5AsMyFDgpYIXH0OFJbTnP0KQa09F9tgZUwQZ1GWu5zlICrbXOf71L448c/AQAA\n\
    //8Vgkq10hIAAA==\n\
    "

/-- data.go:606. -/
def compressed1918 : String :=
  "\n\
    H4sIAAAJbogA/6SXzWokRxCEX2Xpq6chfyrr7w188sF9Mz4M2jYsSDPrmRE+LPvujmqZNZQ6TasMOggE\n\
    kar+MiMjv03316en9X6f6uP2up6m9Xa73qZ6eX1+Pk239f71ermvU/3t2/T48rLeH+eXr1OdOQaKFEvM\n\
    p+nz+bEu+NvPv/4y1YkL55l4JluYq1FV+YmoEk2n6en6GVJ6mi7nF/wyPZ/vj09/vp5vj/U2fT/1JbSU\n\
    qMbslWBZRKqGGkpXgn6UuKx/fXq5Xi+78pqTsrryZeFQNVdKnTz/kP/jy+2/n4AKiYt4NSQtpJW1Su5q\n\
    yL81gMJ9QyYpXMq+vswUFkrVoM/DFFLgaOKWYF4YyvhSfYljFGIOwZK58nmBqqVKNk4h4gUWoldDbBFu\n\
    jcRhjAK0pZCjrzPF9oYQqvX6xymEnCx6zaptFrg00O+a9RiFIEVTdiDrNgtalSr3kD9AQa2YiOMY2maB\n\
    I+yiGhyDByhgEhjGtK8f2iy0edZqsdM/TkFUc4zOOIc2C2RV8ZO7EscocFKz4kAO2yxYpVhD6uQ/QIFJ\n\
    iYIzb2EW9GrBsFWzMQqkSSM5lA2gF4EdxW0vjFGQAteLibwSTA00SWUaoYA2SkLeqEE+Nbfgt1EbpCA5\n\
    JAmUvBrNkbT1KusQBUk5xEzO6owwvdZJzTHKMIUkEcbtgEaJ3J6A7RZ60McoxEgGW/LkOTbI2DzWj9oH\n\
    KFgRleiQjrOElmGQAKwnfZCCqVhQRz8hALRZC/J+no9TQB9xDg6F1CigRItJYxQCxhkBxpMHBeQLQQTj\n\
    cQrwVM7Z/Uqi23ZGuw5SkExq0X2DbnaBebb+DccpCLdpcFZP66X2BCmV+9VzjAKHxEGcWcgzW8sXWJ78\n\
    P2aBcrAcHFPNs8AxYjPV0JvqQQokySw6GQn6sAuqkrYMNkaBS2TL6phe+eckaePWm94hCpwLFfY8tcys\n\
    Lb9AWHv54xQY/z6bOF+pzPK22vj9VzpGgROWc/YyUtnuEdscbzgjcSJjtf1mZWoUsBRwL1B/8hyjgLSt\n\
    kvbdAvKgAG3Lm6cOJlW2lHB3uk9AGn67F8LY1cYGy45p35GgjwzGqTne+NXGIWSE4f1xZt5iWOO7jfMA\n\
    BRyeJnl/7UC+HYWIqfDs/vr/AIWWtnG7uTVy2z24F8LY1cYS2+bcnwXoI4MhXohtpj1IgWEZseyHbZZG\n\
    gaGfUWWIArcIFvdTJG+nOQwbV5vqOAWKGSnPaSRpaRgxEu1KfSMdpIBjhMy5nXm7zbF3tI3bQQq/f/87\n\
    AAD//+Ci5ZrVEgAA\n\
    "

/-- data.go:631. -/
def compressed1919 : String :=
  "\n\
    H4sIAAAJbogA/6SYzYpbRxCFX8XcbSSo3/57g6yyyN2FLIStgGFGciQNWRi/e063gwN3VEHqgBeGYerQ\n\
    96tTdWq+Lte3jx+P1+vSbpe34245Xi7ny9JOby8vu+VyvH45n67Hpf32dbl9fj1eb4fXL0vbc6KqJl5o\n\
    t3w63I4rfvbzr78sbeHKdU+8J1mpNNFm9BNRI1p2y8fzJ5TCr5wOr/jPcjr+9eH1fD4t33bvypcsJbOH\n\
    5evK1Nya+aY8/yj/x+fL9fbhz7fD5Xa83NVg5ZxTpMGpP8HwBNtoyL8a+E7hG7J54sxRfbGVbHyiuqmv\n\
    P+q/HP77CSkXrTlHEsor6lNupFMUElezFLxA9pRXLs2l8fYFT1Bwz+JWIw22/gTNTXmOgpWsZkEnyV50\n\
    JQaCxttOepyCiVqJvKDdC8yNBcWnKGjyki3oU+1eIG1s+DdPQYkqp1ADXmCHl5tOekEgIMWi+vCCoLg3\n\
    TtMUOFVNKZToXgACbwoJfp4CM1eJrGbDC+jTPjA25Z+gQGaqVCIN9pVqE4PlNhoPUfBaszH8ENWHF9Cl\n\
    ws23b3iUAiTYMwwdSSitlODlYbenKXgtnk2jF3ingPZRgJim4DWXnKsEFHxQQCN1R89RyFyzJonqi4yh\n\
    rc3LNIWUBDMvsDMksD6tTySxKQrws2QO9kKCQvcC+kjqPAVXzKMSUEh7Rq/mJqXpJAXDrCgevkF4NKq8\n\
    f8PjFAwzVSRYbZDIa/eaNOcpCmpJtQZWy50C8gWnkZFmKUhOgtkdaYBCTxd4As1RENZqEgztvBfqE6nX\n\
    3w7txymwu1ONJXIHDRA2sxe8UqmpeuDmgs3TISOs2tbNT1AgYcNIijSYew7DdqatxmMU8AJOkAjrlxVt\n\
    5PhK0xRKJZYUNVLZi3cJTfhSMxRKUcHICPZCHRHMGyLG/HZGBksZbtZIg6n7zR15e45CpkqmwdCuPYMh\n\
    wGAi2XZoP04hGdJqFIbrOEm8S+jUdsZydktBlmf65yhEyvNtln+CguNqS3a/kbpGHTkMMWkbth+kYDhI\n\
    okZF/X4VAvH3Rp1Kql4UhsOBG0kghvUwXMbIePpeQHnu58L9zcm4nXlcPDLyyywF6UMpBaS557B+tfnk\n\
    1Yb6hMVA9xsV9XEV9nuER6NOUmAVo2D1QELGyOA67oUJCpSwOzmkgCDcVzNm6v+ggIMhE92fGPz9Pqc2\n\
    jsMpCrkiQ6a4PijACPfqP0wBWdtyqfcHNyQ6BRpDdeYvGChPOWH9R+X7OeL9onrn5pDC79/+DgAA//8Y\n\
    z/NrNRMAAA==\n\
    "

/-- data.go:656. -/
def compressed1920 : String :=
  "\n\
    H4sIAAAJbogA/5yYzWpjxxPFX2W427GgPvvrDf6r/yJ3F7IwHgUGbGkiyWQxzLvndAcmcK1KrhraYDA+\n\
    pepfV9UpfV+u7y8vx+t1abfL+/FpOV4u58vSTu+vr0/L5Xj9dj5dj0v79fty+/p2vN6e374t7cCesxNn\n\
    k6fly/PtuOJv//vl/0tbuAodiA/kq3Aja1w+EzWi5Wl5OX+BFP7l9PyGX5bfEeTT2/l8Wn48fdBPpXgx\n\
    ivRZ1y5bm9BGX3/qvz5fb5/+eH++3I6XuyE4u5cShRBeyZuk5rIJQT9DnI5/hhm4q+GKQvmysjfNjdJG\n\
    nv+5oa+Xf0/BqpvUej+GHMhWKs0YZ46CKYFCQFkOzKtQs/qR8n4KmphLDSggRO0PSb3RHAXcTqUUZiBp\n\
    FW1Wmm8zeICCGGmqfD+GdgpIgUGhzlFgRMBPpM+ycm6OlzRPgcFZNExBaGVqnlBxUxTIUnHSUD6vlJoZ\n\
    kpimkGqxklPQMQxhViBwg/pn4scpALAVV4/0UQtsTXB8o7+bAu6INdcwBS6rSDNtuk1hF4WUq5ZsYQbi\n\
    I4OMatvIP0AhS6kepeCdAiEFNNVJCsmL5ugleaeAl+ToGHmagldMnxxck3cKlEH5I+h9FNzIURGRvFiH\n\
    jAi8vaEHKBgwMKX7MRLGz8ql9WNzFNDwCAUd6teVa/P6MYf9FNTMmcMUOPXHitEm2xT2UZCSHF0pkhft\n\
    kPtk28o/QEE4ZZYgRu4UYGCQwiwFNKRSKJj+uVNALeAoT1Ogyi4lRyF42DzUAusUBVI2iyDng0j3F3hK\n\
    Nk/Ba6KSSxhDuTvJHmaOgqPfuVJQCwUhVtbekWy6FtDyimoKml45MGye9bng26a3i0I381JTMPxLN8J9\n\
    clLTOk8hk2vOYQpSezkTrNg2hZ0UkglcUkC5jn0ExsJhAKYpwAlblaDc6rBhAzRvy20fBWc4sBxQqN2C\n\
    9Y+vw0XOUrCxtQWjrfadBNPZ7ziAnRS0EqHl3dXnPt5WGh7MyjQFxVMVup8CQoACdafdfGo6uyRKaEqR\n\
    fKeAhlfG1jZLgauLBHOhx8ijFmpTm9oXuolkkvu1xjw8GBCnxlu3vZ8CZYUjDihgPce+kHq5kc/sC040\n\
    KIfyZcwFHV5+cl+wCh9GgYdBDGyG/SHJMNsTFDCbVTUYnYzdXPoVKY3ROUfBCidsJAFoGRSofwlDW9C7\n\
    KBg6RfZgLnT5MizY33NhlkIqiSh6SDJ2EiAow2z/N4XffvwVAAD//+T2893SEgAA\n\
    "

/-- data.go:680. -/
def compressed1921 : String :=
  "\n\
    H4sIAAAJbogA/6SXy4okRwxFf2XI7VSBHiHF4w+88sK5M140M2UY6Me4qhovhvl33wibMWSnTHYYctHQ\n\
    xRXSCUlX35bb66dPl9ttaffr6+W0XK7Xl+vSnl8fH0/L9XL7+vJ8uyzt12/L/cvT5XZ/ePq6tDNbcilJ\n\
    sp2Wzw/3y4r//fTLz0tbuAqfqX8rpabWxD4SNaLltHx6+QwpPS3PD0/4Y3l8uN0//PH6cL1frsv305sQ\n\
    ZqXWSmGIuhL0vRltQtCPEM+XPz88vbw878mnUlPNoTznlbwp4dvI8w/5379c/zuFpOw5hTFEV9FGuaVt\n\
    DPk3BlCEOWgWpayRvtIqkBWEmKagxKYRBTlTWaGs0xREASIFGQh+sXJpJk23GbyDAuesnksUQ2Sl2hRV\n\
    kjkKzCaudV9fey9w6hQST1OglNw1KJP2XkCZkIVsy3SIgtZCmWoo33tBWypv5Y9T0CpSJY7Re4Ea78Q4\n\
    RkGL5VyrRPrKnTJrkzJLQXMpWZLvh0i9FxjK1ix9JH4/hSy5mAYzNY1e4IaPbCP/DgruRcTDGL0XSidt\n\
    2xgHKThREg7GReoTCfUBiD4ueI6CqRaPUrAz5VV6LzfepnCMQsroaEmRPKeVvQmWm89TSKxcSvCQ7Cy8\n\
    Ckhb4+1DOkhBk5pQDvVrL1HCetNpCoJmK9FecHwr9lpPYQv6GAURGAwNKPiZpVfIMPD+BwXuEyN6q34W\n\
    6u2ceDiAGQpUsHc8zEFK3wt9vW1zOE6BBIuNgl7IYN1DYDvrVC9I9eruHMmDAroZkLVOU5BKQsphDFDo\n\
    0n27TVGQosIsAeXcKWC34THJ9EQS+IvC0eAu2D6jnWHz5ihkNuMa+JdyZrxTG5tN5il4spo8mBiIUcbU\n\
    w1vdToyDFNBqGasn0hdfkYChpcs0BUw8x02yH6LC6Y2TRN6mcIxCcsLMDlxeHedI6hVSnqegpXrOQZXq\n\
    8GEwSDQ8zAwFFZjh6B6pZ0l9L/Df98gkBYHDKLZfJqZhhvFSbZjhCQqYFc6+vzm7fBkuEhdJmnaqwtif\n\
    hffnNmKw9yph9ySfcqpYzEwsYQ6g0B8qj+0/51QF+nDb+w8JIfphqLipRru9/17gimnhFFSoj9U+kUwb\n\
    byt0nAIXDIxk++2MGN0NI4XaSKcocOFccgpzgBOG1U40tvMcBc7m2YOTp4eo//TCm/P8GAUvGKnB3cky\n\
    KAABPNL27nwHBRdRzUGVxn0Op200fNgMBXNY1WAiQR9OGAlYGtt5koIRZoYFvSCdAtl4SEd64bfvfwUA\n\
    AP//usfd1DQTAAA=\n\
    "

/-- data.go:705. -/
def compressed1922 : String :=
  "\n\
    H4sIAAAJbogA/6SYzYocRxCEX0X01dOQv/X3Bj754L4ZH5bVGAS7M/LMLD4IvbujWliGnknRWxI6LOyS\n\
    QdZXGRnVX6br2/Pz8Xqd2u3ydjxMx8vlfJna6e3l5TBdjtfP59P1OLU/vky3T6/H6+3p9fPUZnY2qW5U\n\
    DtPHp9txwe9+/f23qU1cRWbimdLC1EQbyy9EjWg6TM/njyjFh+n09Iofpr8+Xa63D3+/PV1ux8v09XCn\n\
    oSm7sUUarAtb09QkbTTkfw008uH1fD49rM/EXsIehBZKKHvfg36v//L04xbEVDLVUCIvOCMrjXkjQd8l\n\
    Tsd/wg44iyqlx+Xx3xey5tzUxikwzkktRxosC3Hj3FTHKJA7pxrXLwvjfAou0ygFqsVLVookJHUJy81p\n\
    hAJVTo4mHpfXdRZqE2pWhykQOqjVNNLoswAKBhBDFCijOpfgouo6Czgibbq9qPspZAGEFIwbJEofZ9Lm\n\
    GDd+P4WURFyDDmydhdTMmvCm/DsoJHISDlqwmXkR7qdE2xZ2UnBTUg5uEurXPmtu603iMQqWxTiWgCN1\n\
    03sgsY+CYRo4OiGHwsK6drA9oXdQUJhGyRJpgALlRt6kjFGQkgQCYf3S5xmO0R1vkIJw5kweSchqGd27\n\
    fYgCe0qJgxNK8Ly1fMXmGadAFa7twXaGRl04Nc/rdh6hQFLFo+2fZs79JvWLuq2/l4LVmqRyDSwjzQLL\n\
    8G7ctLWMPRRQnswoBaOWsf/78ndpvB213RSsFhOtOWghdwo4oj4O2xZ2UbCas7hEs5Y7BdgFS6PtTdpP\n\
    AflIOQWg8yyrZWA78xb0PgrJuaRoL+RZeYUszYb3glXECxhGEDAKZBYEJDhGDxgjFJCQ1GvgqgXTsu6d\n\
    dO+q+ymYe3UPAkaZRbqE9rs0REF7BtNgFlAebiHNsXl+YhYQhatLcEq15zD6FvOGtrNVST3qBT1U/EXP\n\
    YLALHd3OkCCxGplenWW9rFoajc0Cm2E1BNNc/3uOoIPhvWCVsgkF7wWmlQIyDBbodnvupECw1OJhfSRh\n\
    XFR3xLDBpGqlWkmFQgmEYTiS1uZbiV0UCv5JCbJ8L79uNnEsz9H3AjTwNIQtPdbgNYchwGA7b9+2+yiU\n\
    7ICswRHx+irsg/YzFBLeOymIkl0Cqw2V030L+yikH7gFysvqFv0Dw/AXDCueKMGWHmvISgGOgTfJ0KvN\n\
    Cva/Yqaj+kjCyGCYZ99+IdlPwRTenQPQ357n0k3v7nm+j4JmuGp57Km8Ps1heN4NYy+FP7/+GwAA//9n\n\
    kx1G1hIAAA==\n\
    "

/-- data.go:730. -/
def compressed1923 : String :=
  "\n\
    H4sIAAAJbogA/6SYz2ojRxDGX2WZazRQf7uq+w1yyiFzCzkYrwILtrWRZHJY9t1TPU42MFKFcRvmYLCo\n\
    oudX31dfz7fp8vr4eLxcpnY9vx4P0/F8Pp2n9vL69HSYzsfL19PL5Ti1375N1y/Px8v14fnr1GYUZ5Bi\n\
    wofp88P1uMT/fv71l6lNWIlnwBl4AWosDe0ngAYwHabH0+coRYfp5eE5/pj+iCafnk+nl+n74aY+iZhX\n\
    yuojLFFWtYFv6vOP+k8Pl+unP18fztfj+V4LdC6lpkdA60cQbLI9Avxo8XL8Kz0BokBFycqTLsBNvUHZ\n\
    lMf/3tCX8/8fAaQylqQHRZsFtWm02fbYR8FqRcJa0vq+QG1YmsgoBatkWDFtgbpgDcoNti12UTDXQq6a\n\
    lSfpcwTaRIcpmFUpqPV+D161wI2kAY5RMDamTAvx1AW9cQzqsBasGJC4ZS1CC0hNMWZpiILWaiqQlQ8t\n\
    9CHCKDxOIeqrUEJBVi1wi3HlQQrhSV4woSCrFrQRf8CRTJBZSjKsMmNZoDTy8L0hCixSRNLyXQulhdow\n\
    yuMghXhH1SVxJJkZFqJG3TQ2PXZSILIiNRlUncG6XYQciDf191NALbU4Zi3CkYIyh+LqpsU+ClDBUZI5\n\
    1Zm4e3a4BeI4BWAuLsmsaqcQpGNc1YcolGpY3BLTLvEsCJ1C3wtjFEoFZMm2c4lfdDn/s53fT6E4Wy3Z\n\
    Xigz4UJR+20vDFIo5kAFEtLRwxeMpcC3pHdSiElFybRmnUIEmMhIutXafgolHEOzYbVOISrLnWHdR0Fj\n\
    PbsmUrNOoafIbhjjFJQiAWQZJnrYKme8ndWdFEQjDGdn8DC9haDRnTPsp8CVEDih4DNS386xQWGMAsfW\n\
    MUykFuXrArZGsK3U3kEhUp6QJr7tM4VjYN8LsPXtnRQIuqgTyrVnsG4XYdrjjoTs4JZYRu1XkrAMpfDV\n\
    IQrgYGFLafk1goVn39yo3kEBUFWysF3XOwn2QaJt2N5HQauIV/a79RHWJKxda0CjGUk99hokYTha4L+r\n\
    7SaG7aKgTrE8E0/t5UtXs8qaXwYpqKnHleG+FqJH5LAeYKzxNmzvpFDcPbsVIvYk3M8Ajbdn2E+hMJBZ\n\
    QgF7GO4hxkYpqKFHXM3KRwSLIN/vCx+goCGGknzBiB49h8X2rKNfMFTCVWO/3a//djePjARr2h6kwBbx\n\
    gpLX9HY9xy63m2HdR4FRCS0t3ynEdrYPUSARxkwL1CnE7unfkQa1gOZV5b7jRX1eTXttsZPC79//DgAA\n\
    //9cy7KdNRMAAA==\n\
    "

/-- data.go:755. -/
def compressed1924 : String :=
  "\n\
    H4sIAAAJbogA/6SYy4pbRxCGX8WcrXWgrt1d/QZZZZGzC1kMYwUMM5IjacjC+N1T3SYO9KjCURvEMDDD\n\
    X3R9dflLX5fr2/Pz8Xpd6u3ydjwsx8vlfFnq6e3l5bBcjtcv59P1uNTfvy63z6/H6+3p9ctSVxRFQknK\n\
    h+XT0+24+d9++e3XpS5oJCvgCmlDqmIV8keACrAclufzJ5eCw3J6evVfltPx7w+v5/Np+XZ4Jw+ahZAi\n\
    eeSNXJ4rlEEef8j/+flyvX346+3pcjte7sQQK1mMcxSDaHNpzR5miEH/xfA8RW8QIyUBCfVtA63KFdOg\n\
    zz/0X57+/wklJSqA90PQCroBVraqNkNBshkqBBmiFWkjVy0Vxww9QCEzSoagkGgl2DD1GGMh7aSQMgFp\n\
    CfXzho5Aq9A0hYSgSYIQ3Ci4vlrFMcQ+CiqIrCmS917wDClUkXkKkpMoaxSDcAOpjBV0joJgKYYBZW4U\n\
    vJJIqoyU91Ng9X4oQbG2zwa5Yqk8Fus+ClTYPEeRvPcCohOuPGboAQpEJEgWxrBWSC0MfvS+fpwCJhUG\n\
    iPQptYlEpRIM+vspgBXKUbFqp9Cy04sVH6cA5DMpBZC1UQDvZvaxOsjvp+CYDYoGpD1GabtHqZJOUWDz\n\
    dhYOekFX6uOiDb08S4GLL0+MKCSfey0ES4UpCpwzM5fgBWlFn9k+LXwojS94gELGBJkCCh4jt1oV74VJ\n\
    CslHdkrhG0h6JXmW5iloSagUtFtuFCA1CjK22z4Kiuacgwy5vHWPlN5n6AEKksgkB/2WV/xu80r3SDMU\n\
    BCBLNFXzSr7bso/UquMb9lNgBnerQS/klbGtnlZIc71AKaNYMLOLf9rmdHkZZ/YDFAiMKVptxf9jI/x3\n\
    tc1QaKsHo+1cmhNGaHuH5nsBsjJI4FTLyrCBddA2RQHcRCYOLJi1c8TlvReApimQqVv66F6w5sPcYLjN\n\
    ozkK5OYFMAWVZN2DsY+jvv3nPBIVAvXbKgxRWi/47NbRxOyiQDkR+mC9K4/QjbDvBfgZj0TJTN3FRDG+\n\
    3yQEffdMOFXygaeA9yvJ9f0eads/VZq+F0hT8p/3D8MWorS94CHeHYb7KCiUHJ0j6Kd5v53xzjnyAAW3\n\
    25jjGIhtLzhpHWPspMCZ/Gy7vzqbvvW9YH11TlJgxJLK/a8YPISbYQ/RnNj4FcM+CqQ+MXLwAmoUfCL5\n\
    WOXxBQ9QwKIW9hs1Cj6RfGi8a+edFJqHLBakiDqFvhdkTNF+CqBZiYJ2pn6ScDcxe75H+uPbPwEAAP//\n\
    Xw642NESAAA=\n\
    "

/-- data.go:780. -/
def compressed1925 : String :=
  "\n\
    H4sIAAAJbogA/6SYT4sjRw/Gv8rS19cN+lOqKtU3eE85pG8hBzPrwMKMvbE95LDsd89TvbCBthV6Kkwf\n\
    BgwS6t+jR1J/m27vLy+n221q9+v76TCdrtfLdWrn99fXw3Q93b5ezrfT1H77Nt2/vJ1u9+Pb16nNnNi9\n\
    ZiY7TJ+P99OC3/7/6y9Tm9jFZmI8i2iT1Mz+R9SIpsP0cvmMUHyYzsc3/DP98eV6u3/68/14vZ+u0/fD\n\
    Yw6pUkyiHEwLSUulSd3kkH9yoJBPb5fL+Vn8mklFahi/9BpUmskmvv6M/3r89xIqKVEKS5C0cGrJmm1L\n\
    oJ8pzqe/wgoKMoh5FF554dySNOFxCrlQzVEJMlNdhFvyxoMUMmXmFChJZs4LeUv0qKT9FCxVFQpek8yi\n\
    XUisjbevaR+FVJMUL8/DKzIsLI0AQscp4E9ToSgHegFCElRBYxTUUIIEFLT3AqPRuPE4BXFNrhyl+NEL\n\
    hCp8iIJIBoigm1N3JKoNIHTbzR+gwOawjBTm8IXgGKlpHqNA7m41EGqa2bojoRcehLqfAmlNWQKxprUX\n\
    YNzeFGLlD1Mgz94zPA9vKwUQRgV5E34/BXJKlU3DHHU1VWipbHLso0A1FSEO44NCb+bcZBt/NwUqVZki\n\
    CjaLrMY9TKGwJIsMz2al7tkAYTxOIRtrssAxMp4FdoQSyMYomMOVIgp5Zl3g2KCcxinA81QjCnkWiLU0\n\
    +J6NUUiWvXjg2QjvCxOGQlMap6BeRSnot9IpELYLkN72204KiqfWwFXLzNIpq8FYhykI1KolAF1moVVI\n\
    9Nhu+ygIidVoU0X4dX+BrfJWpx+ggP0FNQSkK3y1bwDmj6R3UqBqGG6BUOvM3JXE/CjU/RSIDbYRCAkp\n\
    vJtq99WtkPZQUPfkhDKi8FK6TuGputXRbgroBOciEgjJ+x6GwWMAMTQXeqd5rhooydd7hPuGkbZK2ktB\n\
    vZizlIACUtT+mtZtcohC7tuFBDr1WWzVKdph2JGQQ0tBOzzNwdQpYHqio/uaN0LBimC0Pb9HenwItXZH\n\
    ou09sp+CkVoO2g0p+jJcWwexXej3UUhJYKnPpzPC90UYFeAZvtrUFWLFcIhy9MsQoy032ubYSUG75eUg\n\
    Pq87WH8/64YxSEFwtZUcCInXwzCjlxuP3AvqXD3D9qLwP47CvuhtL6oPUGDBBpCetzNyYA/rNwmt03mE\n\
    AmEsMD93VV5vc/Qz5oKMfsHQ6rja0A9RCizD7OsqWUYoVFer0TcYhO+LMEzC/8PVhvUlu0c7DHLo+h0J\n\
    XvTwnecphd+//x0AAP//wiYjIzYTAAA=\n\
    "

/-- data.go:805. -/
def compressed1926 : String :=
  "\n\
    H4sIAAAJbogA/6SYzYpjRwyFX2W42/iCpJLq7w2yyiJ3F7IwMw4MdNsT200Ww7x7Tt0OEyhboaYCXjQ0\n\
    LVn1SUdH/XW5vX38eLrdlnq/vp0Oy+l6vVyXen57eTks19Pty+V8Oy31t6/L/fPr6XY/vn5Z6sohp5JL\n\
    KOGwfDreTxt+9/Ovvyx14SJxJV4pbZSqhCrpJ6JKtByWj5dPCIU/OR9f8cPycrzdP/z5drzeT9fl2+Ex\n\
    BT5aopeCdaNYg1XSLgV9T3E+/fXh9XI5PwsfM3Mi88ILbSI1MDJ04fl7+D8+X/+7hMjSinBz5E1agiqx\n\
    yyH/5gAKtwZTiaT5eXxZybaGwKrJNAXNGjg4oGVl2RiguVIPeoyCipkSu+HLxqAAzmWeQjBFs5KXQ9LG\n\
    sRpXpjkKkpNlLs/jhzYLzFVLVZ6mIIHYOHkp2iyERkHCFAWOhSiLF154I6sowvI8BSoZJTgUkAOkERrj\n\
    MEmBQkgpO0+k+yxQNarcP9EwhVRS5CDOOOs+C1ItVevHeYhCKsyFzJlmbYqEqBAlwTTzHIWEgVNjtwQo\n\
    EkJzrhS7HGMUQIAKZ2eerVEgBYJ9nnmOQhIuKTt7wVbmJnqGidYuxRiFaJrYnD6yXZFy1bSP2iwFyykp\n\
    OaJquyJJUwxLcxRMsmVxdlsbt41KxafttkkKGrGfg0MhrkxN9JBC5igEIM7sKBLC5/ZC6CPK8xQCFKNE\n\
    p1fjKtYcAHJY36uDFCRFrGenhoTVs7FW6Db3NYxTEBa26DRrahSaEKVd9CYosHKMnqamRgFf3+wx/A9Q\n\
    ICg3Rs7LAQqweayPOQYpkASl6CheWgO3vQCPFHrFG6YQi8VAXiNlfBpozY+NNEQhZvjIaE4f5ZVjs2Ch\n\
    /J9ZiFkSB28751XC1kQ77x5pgkJMeCT2dlteAzWHoVS1323jFBIRYRyepyj7SRKr6uPqGaMQYYMtOy6v\n\
    rGytAmlGcp6CQVPJ3BzwYfB4DNJ9jkEK2PwSPNEubfu/7zbtRXucgmowce4FJujqLqrYblP3QsT65xKe\n\
    bzaEhxHGqAkqmL/aYhCi4Og2cvzjhvXRDQ9SEMNdW/z4uTlhGBjt449T4JwoOYrE3GwYvn94X20TFHDW\n\
    mjrXP8LDCMOCoYMeIP8ABWpGTN0Smg+LtVn6voQxClZKiZKeKx7iy/4fDLbHe2SYguHozIWdZt3P87ba\n\
    cLX1zTpEASaSEOr55uT9NG+Ch3Okv3jGKRjsfFFn9/B+nyMHve+eGQogLPCrXvxGwWo7e/on8ij8/u3v\n\
    AAAA//9nMugp1RIAAA==\n\
    "

/-- data.go:830. -/
def compressed1927 : String :=
  "\n\
    H4sIAAAJbogA/5yXy4ojRxOFX2Wo7aggbnl9g3/1L1w744XokWGgWxpLarwY5t19sgxjqKoYshPU0NDN\n\
    CUV+EScivk+P95eXy+Mx1ef9/XKaLvf77T7V6/vr62m6Xx7fbtfHZaq/f5+eX98uj+f57dtUZ9YQU+DC\n\
    epq+nJ+XBX/732//n+rERdJMPJMuQlVypfSZqBJNp+nl9gVSdJqu5zf8Ml0vf396u92u04/TXp5jSkqe\n\
    PNPCVs2q0kaef8r/+fX+eH766/18f17uRzFC0MBR3BhpEamSKudNDPkvBt7JzcGyUjLz9CUuJHifqnGj\n\
    rz/1X8+/TsGEOLDzTILPQrkGq2H7TH0UNErhX8jnRfRQ/gMUpMSg5BSSzBwXjkBQeVtInRREQmbOnr5Y\n\
    K1RUkskwBY4hUyjHIbT1ApcqoRoPUWDKauTUqa69wJV0X6cfoEBaDNXkxsgLo51ttBesxFKI3CdCLyAH\n\
    jVW3T9RNwQoLUXJC2NoL1ijIEAXLqNSSnTqCfFmgilLibR31U7CUJVEMXgw4ElLQgM9n4gEKiQN+HMq2\n\
    9oLifeDbG/1+CmgFS+akEOB7C2s1qmGbQh+FUBKRJVc+N7cA5KAb+Q9QCNL62Smk0BwJmFu/8RgFi6IY\n\
    b54+KBAaQfc59FMwspyyG0KpjTZE2YXoowA7wvB0XijOlNrYsbQa3igFQaFqcQopzhwWKq3faLAXhNDO\n\
    6jxRnEWaIwlCjFPgQEXUWQAQApaB6S/V4hAFjIWMYj2WTysFrkH23fwBCsQRzu2kkGZep2czjW0KfRQA\n\
    OOWSoqcvsAvMTTiGjVLQXKKm7IeAZeQ2esI2RBcFbZadg1OnGd3Whj8hiW2d9lPQFAWG5NRqxn8sCKB5\n\
    X6udFBIFi4Vd/dIoh1CpDFOIhjUmOhTyLKn1giGLMQoBKYj3QgXDrXUz5Gl8Lmjr5kTOK5WZ19HWtuHt\n\
    K3VSQC9z8u6R0nawNv0JoIcpwDDQbW4KEtoCgE1Ptyn0UVA2A4hDeaZGoV08vO4vgzuSSgDreOxIiIFt\n\
    GAsMTGN3VXVSYDyQOVdb00/t8oRpj19typLbyu2FAIX2/dP+uO2jgFOELR5vqsxtEYZ8izC+qSoRp1SO\n\
    a7XFKOsOE6uN3QtSjBMlVx87GBxP8l6/m4LkRIXMocBtDUMjrDvGCAUYtkV17k7+9zSXygd3Zz8FSZYk\n\
    Bz8GRtu6YMg2RieFmM0CO72w3uZN1tYFZpBCZM3emsfreQ59+KpsLeOIwh8//gkAAP//bYU6vdESAAA=\n\
    "

/-- data.go:854. -/
def compressed1928 : String :=
  "\n\
    H4sIAAAJbogA/6SYy4ocRxOFX0XU9u+CuObtDf6VF66d8WIYtUEwMy139+CF0Lv7ZAlkqK4wNWmohUDi\n\
    nM78Mk5E6Nt0e39+Pt9uU7tf38+n6Xy9Xq5Te3t/eTlN1/Pt6+Xtdp7ab9+m+5fX8+3+9Pp1ajOrWBWu\n\
    qqfp89P9vODv/v/rL1ObuEqZiWfKC6VGuVn+H1Ejmk7T8+UzpOQ0vT294g/THzD59Hq5vE3fT4/6kiQ5\n\
    R/psi3Bjb1Y3+vpT/+Xpdv/05/vT9X6+7lmoZysWWogsQo0rvo0F/bR4O/8VnkBqVolPIHWBtuycgP+5\n\
    oS/Xfz+CaPLssu8hM/l6BGpWxihwykVTQFnwL/oZQJm3lI9TYMJXS2QhvFBtxs1kiAKZVlYP5ctC2vCU\n\
    yIcpcC3kQoGHzpQW5iap6dbjGAWuVGslivRRCygEnMFolAIXy8lr8JC0U8BDUohvH9IhCpwrCaohlC/9\n\
    htyabOU/QCGLgXfe97BeCyCtubmOUUiuWjhF+qgFKq2/VRum4FVLyQFom4UW8h4ZugV9jIJrYhRDKJ8W\n\
    kV5qgmrmQQqWcmIOasFhs+Y2PHzjcZCC1iKeg1T1maXrOzWpG/3jFNTIWQLQsEBwW8OntrE4RkEKW9Ua\n\
    yYMCAhs3RDxOQZgl14B0QsktrA3fA+mDFNjMPAUU0szcuz8o6DgFKhkDQHBNsMgdtAlyb4gCSSLNQVqk\n\
    WfBOFcNLIx2mQNXdkgflnDsFJJJhwKAhClQqe7HgivLMtFL25tsrOkyBCjIvWVALuVNAIikshmqBcqo5\n\
    c3hDsnY2LY839AEKmUglqoU+ii2M1szrpDpCIWHAyBqcoX8Llya2hvYgBc+1lhwegb0nkpXHIxyjgLQr\n\
    yIxIXrSPYKi23p1HKSAvMl5S5KG8dmfATmMU8EyzRd259hkM9awJIIYpYJpHqAblVvsYRogjegzuYxTE\n\
    HbN8KI91BDfk+THwPkAB7b8vPaFH7Ylh6G4yRoERFxjpd/WZOoUfW6EP9wWiVC3Jfi3Aoq8kiKP0uJIc\n\
    oSAYtIsV3e8LkO+DMH54WvvC2KQKD8VTDVKve5R1DjM00JFJVWopRNg+9/W5z2CICwyrsj3DUQqwYHHT\n\
    ADT3MQyRgXKjkd0Zv92wVOn+O4W8rJ2ty2+Xwg9QSD3zgsToHrkfgX4kxgiFJE4UTNssnQLiQhXlMEwB\n\
    80X1ElyTrBS8H8FHdmepVhLqOZTv6wjSAiD+AwWTklLd3xe6R+r/w+D+uJ/vUvj9+98BAAD//1jEKzbS\n\
    EgAA\n\
    "

/-- data.go:879. -/
def compressed1929 : String :=
  "\n\
    H4sIAAAJbogA/6SXz4ojRwzGX2Xpa9wgqSTVnzfIKYf0LeRgZh1YmLE3toccln33SDVhAz2tpV0DfRgY\n\
    I6H66ZP0fZtur09Pp9ttavfr6+kwna7Xy3Vq59fn58N0Pd2+Xs6309T++Dbdv7ycbvfjy9epzUg1aVFg\n\
    Okyfj/fTYv/79fffpjZhpToDzkALlsbSpPwC0ACmw/R0+Wyh0mE6H1/sj+n5eLt/+vv1eL2frtP3w7sU\n\
    VDOT5CgF4mKRqTZIqxTwI8X59M+nl8vlvBk+oVqKMHxZUJp978Ljj/B/fbn+vATMDMoY5SBZIDeoDesq\n\
    B/2fw1CENSAicAkokKVYkBviRygAgxQMSrAUdcHcRA3ECIVSc84lcRQec4dMjXWYQqkWjTVFOSh5r4p9\n\
    eYhCKWJ6yGU7frJvMQToZYxSKLlwThCmcC2UlkrDdYp9FDKxFJUwfPE+ZTI5jFNQZci1RjnetMDaGMco\n\
    SBXrVN2Ozz6RLH6ChjxMwTiXLAEFdi0QtMQNxihwRq01kBrPqF3NFngttQcoMFgaCrTArgUXW+5awAEK\n\
    KRVIOegk6RSokQ09WcXfT4EMgUbPJE7Bh2rpEwkfp0BYYgoyoyyEPvB4Hf4BCijENQcUpE+k1MQmxiAF\n\
    sCokBVqTOaEPbWsmwmEKQF5CsD51huzNKrmvz8cp5KqCgmF45AXUK+B1+P0UcqmaigS7R2eyXu0XgO+e\n\
    AQrZOjXVuIYEC9gTbdSwm0LOWjlrUEK2LN6sJmdcl7CPQkYwpQUDL8+YvI+sCKZxCrYWkl0ZUQ5CH6pW\n\
    RRqkIDlJuHcsfu1ae9s7gxQElVMJnqmY4hw0Q9/OAxRYBDGaFsV+0QfexrR4gEIqrArB3C4zwWKLh1O/\n\
    AEYoJAJWCWug7I3aV8MwBbJzXqJnqv0M66sN1in2UcBa4grqjLCQ9ZFNiw9QcFuCNaBgOapfw2i9OkgB\n\
    1CTNEMUnXSA1P8NgmAKAGcOyLTcEPwDsmezeTmu57aJg4w4Bg5lt4Y2CxTa1wbhf0JJ9JMU5ijeSrZ93\n\
    nmQfBS3IFSR8Ir+Ei3seWl/CuyloloSo20cMYjeG5CMjDbk21ZKIMHgh7KaQ3dd+wLWpotvb7e1pOd6c\n\
    4X8XwAgFURTN21qw+H6DqZ2pZhmGKbBdMaDblgS7Pfe9YMZzbUn2UWASpUgL3Zo7AuujD1BIysx1e+pZ\n\
    Dvck6MaTxryzJrC5XQMK3Zv7Uij7Kfz5/d8AAAD//+9MUXjVEgAA\n\
    "

/-- data.go:903. -/
def compressed1930 : String :=
  "\n\
    H4sIAAAJbogA/5yXz4ocRxPEX0X09duG/FNZVVlv8J18cN+MD8tqDILdHXlmFh+E3t1RLSND96TpKdBB\n\
    IG3kVv8yMiO/TdePl5fT9Tq12+Xj9DSdLpfzZWrvH6+vT9PldP16fr+epvbbt+n25e10vT2/fZ3azJI5\n\
    11KEn6bPz7fTgn/7/6+/TG1iV5qJZ6oLaWNu7P8jakTT0/Ry/gwp/Mj78xv+Mv3x5XK9ffrz4/lyO12m\n\
    70/7Gkyk4lENTotIE9TgTQ35twYe8untfH6/p0/GxSVH+sIL50alWdro60/91+f/fIJ5ZXNOYQlf2BvV\n\
    RnlTgn6WeD/9Fb0A0ko1BS+QmfLCpYntX3CcglWzki2swbrg91e8YlvjGAUrbpK8RPpCXT9ZIx2mUCSp\n\
    FwlL1IW1qbZUhyhkq4VL4AVdvZCg2mTcC5aJU80U1YAXuDYDBRqjYFpJPdQXWf2Mr7TVP04h5eLOAWid\n\
    FaANCPagj1FIZKnWwGpp9QJ3L/DWag9Q0FQIlaIa3Qu5JV/tzAMUpBKaySJ9eEFAgRrbRv84BemDtQZ2\n\
    Tt0LQmuJtClxjAKbuNV6X97wp08kQx/JRv4BCuSCNwS9avgf3QvizWiMAomaWrB3rFPoUxWW5lEKCd9I\n\
    IBeWqL2RtOyfcIhCciLM1eAFGW7rm9PQqtsXHKeQqha0UtCreWZesDpZ9r16jEIqOXvVwGvQx+qEjaWl\n\
    rdeOUyiUiudgIuVZMDJSS3iFDlHIqVShYO2UToH6WmtcxylYDxhxDcbEgDQ33dY4SMGYhZOG+r5gmCo1\n\
    K8MUUKMARVRCrD8hoZHGvKCeJHHQpxUprC9/yVgN4xS0hwAOKKCG991jWG2DFCCvykHCqDOXBUZTXhPG\n\
    IAX22v0WlZDUQ4zmPehjFFjdkgRWq7Ny7yNMpJ3VHqBA2bV6QNr/uUkQMHakD1IgEqkSTCSf2fpU5T5Y\n\
    RymgV000LoEYBv3Ea4h5nILWqlZKsJ19PUdwLBSM1WEKWnGTiNy3M3dHr0kVfhtLqlp6yquhPihgquIr\n\
    7ZLwcQrZmTQ4eVACh2GfSD0DjCRVzZJB4r4Xujxmqve71rZB+AEKZrnmfL+RmNc0jIOkrr06QgEJJpcU\n\
    6iMJA4EUTIxhCgkZLBqqKNFjGPXPJENXm2quUj18wY8I1oPk+L2gSsweJEle73NIJ1pz2AgFbAaQvr8X\n\
    oI8kjDCPGLa7PI9TYOTIEsQw/nGecw/Du890jAKTOxwRyq8zG3ftzmohhd+//x0AAP//kRTqJdYSAAA=\n\
    "

/-- data.go:927. -/
def compressed1931 : String :=
  "\n\
    H4sIAAAJbogA/5yYzWojRxDHX2WZazRQn93V/QY55ZC5hRyEdwILtrQZyeSw7Lunekw2MJpaRm18MBjq\n\
    r65fffxL34bb+8vLfLsN9b68z6dhXpbrMtTL++vraVjm29fr5TYP9Y9vw/3L23y7n9++DnVEYpCEkOQ0\n\
    fD7f58n/9+vvvw11wMI4gv/KhFxRK6dfACrAcBperp89FJ2Gy/nN/xj+cpFPb9frZfh+2sanYqZsGsVH\n\
    nEArgkts4vOP+K/n2/3T3+/n5T4vuxLERGihhE1o/vkr0UYCfkhc5n/CF5gSUpwhylOLupMh/D9DX5af\n\
    PyEXdBXc16ARuGmQP6H0UcgsgDmg4PHLhKlRoH4KKWnJmCMJzGshYSXuoqBF1UoYnrS9QLDKNvwTFJQz\n\
    A5Z9DV57AdZCwj4Kki2LBhT4v17QKv0UBCwVjiXKBLkqer12UfAyUgOOwrde0ArOOfdTIGMmC0iLw55o\n\
    7Tfckj5IwX+yCYTxS4vvxQTQTQEVi+YgTdImEjgCb7dtmo5RaIwp6mZZe0Eq21pH2EkBqHi5BkNVGwXw\n\
    icGVaaNxjAKWlChxQFnXicRVyjousIsCWkloOUUSbSJ5L3uaZCNxiAIaS1sMUXiSVkfs3bYNf5wC5qya\n\
    crAXdGSc2mqmCqWPQoYiwEEvpBGsjQsslaGbQhKUZEEvpBHTBFI9uOYuCmpYhCgKT9xajaiq9VPw1ewO\n\
    IyCdRoamId4OW9IHKYiSkgR7J68UoCpVxm4KbFlTtNryiLpu5+IbtIsCU0kEYXj6mBbp8QVPUHCHIWyB\n\
    D3ONj4mRqqY+Cj6yS4GgksxBT5jbuMBtJR2ngL4/cwnSZCPyRNhsXicFyCnnFEwLGwkmpDaRcDstnqAA\n\
    rgIcZolsbWef29ssHaPQ5pELBJSLD70JzA3Y6rb7KICZHzwcSiA1E+MUYCtxiAKYXySZAgqlLf/28X0v\n\
    9FOArIJJg4lURkpt94g+rraDFJKJRXsHoTnh5pH08R45TsHXv3uA/dXjEm6GvZ0dhGxt2DEKvjaNy75H\n\
    auG9Tr1I4dEIP0FB/OCxwKm6hlNoBqnbqYIwMAcnFeJ6FXozmxvubgqcyUIKuJph353dFBh9rNr+tPDw\n\
    bsGAVhdp/RT85qESZ8ndcMvSzuF5kALm1A6S/fjUnLAvNj+pcPv1wnEKiOZebH8v4Md57u2W3SZ1UQBl\n\
    Srg/LTy8WzCHLN5t0ksBSzE2i/qNVjfMlfSx33Yp/Pn93wAAAP//YBoE6tISAAA=\n\
    "

/-- data.go:951. -/
def compressed1932 : String :=
  "\n\
    H4sIAAAJbogA/6SXy4ocVwyGX8XUNtOg29G5vEFWWaR2IYvB7oBhLk53D1kYv3t+NcaBmpapPoFaGDxI\n\
    rfPpl359Xc5vHz8ez+dlXE5vx4fleDq9npbx8vb09LCcjucvry/n4zL++LpcPj8fz5fH5y/LODD3LuK9\n\
    tIfl0+PluOL/fv39t2Us3FUOxPhW4iE2SH4hGkTLw/Lx9RNC6cPy8viMfyxPj+fLh7/fHk+X42n59vAu\n\
    RXNpvWuaoq6iQxG8blLQjxQvx38+PL++vtwKX7tVFsnCc1mFRrGhbROef4T/6/Pp5yVUaezuWQ7RlXVY\n\
    GWqbHPJfDqBIa3Dv/JMnUlqpD9Uh2yfaT8HJm/ZyOwU+X9mGOaqYolDUzStl4dlWboPxQjRPwaqytZ7l\n\
    EFlJBrWhPEfBuJSqCWXEb1EDGeQwTUELsZcEtIYWqEYj2ZwWpOJTy8JDCyzDeJDPUxBuLdWbBgXk0DrK\n\
    Vm87KbBzUc7j95WgNfTqNv5+CoRY7okWLLQQQ0/Qr1MUSNS8JxQstIAKoIX/QaF1L1RbMrftILTi94uP\n\
    grnN91NoPcYFcRq/ruwDE6P0TfzdFFpTd7NEzgXfyn1EL/EmxS4KrXqntIJyYMxsIOCh2wruoFCZa+GE\n\
    QgkK5DGRaJKCF1braQ2gQGUUlDFPoTRyp6RZHaxXpgHW6lMUCpcqmqjZ8RfRp9qHtHkKVpphOaQ5Wmxn\n\
    TCTVOQpYm2ySUPaDwGGgjSCHLeX9FFSKkSSgK+ZeeCTI4V2z7qMgrlhvidRqUMBaw+Z5J7U7KAhZayVx\n\
    AMhRg3S0K81RYG0m2VStQSEMDMPDTFOgSpBz8kwNHiC0gBQyN5GIqXdK1g7CY7O1CK9lmkLthTAz0hLY\n\
    v+egbQn7KGDlcCyeLL5YxA/Q01qosNqFMyvZDspXQ6/vG2kXhVpLKzXrox4WjCP2dTvPUsBJxWJpDjiA\n\
    71rY5thJwQVmmxOn2uMeQVgLszpNobgAdDJU+/UkcUztYduhuo8C2tTIbhthprBggBwvtDXCd1AwbVXp\n\
    thaQI24SDFWcJXP3Ak6FBrN3mwLihxOuV480fS/g57di7XYjRYoeQw8GgLdWch8FIO61JRVwWDBAhhZ4\n\
    W8EdFDC5XeptB4Ac8GFYPNFIc/cCLBj8Rb89LhBfOOKX9v7y3E8BvWpOt4depGgrIpteDcD9FLzH0C4J\n\
    hbDb4S9w8dA8Be9i4j3NERRwL0SaKQqOmaqUUZbrPULXvTB9tXkjIqc8BQY3VnMoegeFP7/9GwAA//9l\n\
    cb4MNBMAAA==\n\
    "

/-- data.go:976. -/
def compressed1933 : String :=
  "\n\
    H4sIAAAJbogA/5yYzWojVxCFX2XobdRQv/fvDbLKIr0LWRiPAgO2NJFkshjm3XNuEybQUg2tC40xGE75\n\
    9ld17qn+Nl0/Xl+P1+vUbpeP42E6Xi7ny9ROH29vh+lyvH49n67Hqf3xbbp9eT9eby/vX6c2M6esOZdk\n\
    h+nzy+244G+//v7b1CauqjPxTLpwaiKN0y9EjWg6TK/nz5Diw3R6eccv019fLtfbp78/Xi6342X6frir\n\
    kVJm4xTVYF6EmqKMbWrI/zVwkE/v5/PpoT4pl+Shfl0oNfamvtHXH/pvLz8/gptzFY1KiC+iTbhx3pSg\n\
    HyVOx3/CE1iumUogL3gW1n6CO/knKBhTypSjGky9BnFTHaOgVtFJsX5e2BqV5lv9/RSk1EJWoxJiC0sz\n\
    b85DFETYtfJjeTyQp9Y513EK7M6eg3nTmWUhHCE32s7bTgpUU5YSzAL0y4IuJXTS+CyQag3HTWdJC+lq\n\
    GdsSuyh4TVrVy2N5646Ef98zKgxT8EqUQtezdRasKXoVFPh5Cl5MPVPQSdZnoSMojetGfzcFzzlXruFr\n\
    6rNQm+EFyabEPgpwCvUajJp3R8IgdHneyD9BAbZHpVJYo/Ya/UXRGAUvFVIBBZ85dcdzKI9TcOFcKbja\n\
    fKXA3fTYhiiYC2kJTpBw83TDc226PcETFLQaUQlmATVKvz07hcFZUHVPGjRqmtkXjLGk+0bdT0ESLFWC\n\
    qyfNot1URdarZ4AC11xRI5JXWqBtfA/5CQoISMQWzELGs5Lu6mMUqMC2LTDtPLP1WRBbTXuQAlGtFMW8\n\
    PAtCDO41TPTQLFg1K24SyYMCmtRwgjJMwUrJqVLQqwUTvSZVZKRtr+6jYEVMuARnKDOjUa053Z9hNwXL\n\
    blpTYNxlFu7jjIDBW+PeRyEhBXMO+gjypRseWsm2ffQEhaSaagoo1J7DuiPBugcpOCJS5eAMdd1HpFOW\n\
    4Vkww82DOBmWqP12xnNn3PsoAHGRqE9rj2DY2rBR3fXpExQ0l1zL4xpM62ZYEFOHKSjBVstjx4M+KPDa\n\
    qN3xxpKqiRmWw/AIfTGEZWCz2kbJfRSwdBb1x5Ah35dCXDvUbHxfMBYpJXAM5p7DKDcvCKtD+4KRCxop\n\
    oMBrEpaeVG2YguJWEGyfYYn83ycG3b6mXRSwLEiV+ji/QB4RDG8IWV7Gv2BoQRshyTyuse7nfXEG6e1+\n\
    vo+CIl/gR0Bh3c0xaAjDPk6hx3mxx7czr+s5MpKDwvYjzD4KqX9GCvYFyCOCYRAQhGW7mocU/vz+bwAA\n\
    AP//hH3hoNYSAAA=\n\
    "

/-- data.go:1001. -/
def compressed1934 : String :=
  "\n\
    H4sIAAAJbogA/6SXzYobVxCFX8X0Nmqov1v35w2yyiK9C1kMYwUMM5IjacjC+N1zbi8caKlC6xraYJih\n\
    aup+VadOfZuuH6+vx+t1arfLx/EwHS+X82Vqp4+3t8N0OV6/nk/X49T++Dbdvrwfr7eX969Tm5k1aWVK\n\
    dJg+v9yOC3726++/TW3iqjYTz1QW4aapJfqFqBFNh+n1/Bmh9DCdXt7xn+nt5Xr79PfHy+V2vEzfD3cp\n\
    rLBV8SgFp4W1aW7JNinoR4rT8Z9P7+fz6WF4YXdOUXiRhblZbZY24flH+L++XP6/BE1UEkmUQ2lhb4qH\n\
    Kpsc8l8OoAhrkGLKUQ0yU16oNoCQbQ37KYh4VQpTsC2IbNbSNsU+CuyWlDQKL7yQN0L4PE6BqhYt5XEO\n\
    BYiFqYm3JGMUSMnJA8raZ4FLo3RPeTcFqVkkFY5S9FmQhiq4jlCQSl6KB5B1Fl0Is4AKxmdBiuaqNRhn\n\
    nZV7DoyDbcd5HwXJObvkgIKts4BGLfiGKWTOZilHKVgX0ZZqIx2i4JC7zEGfWp+FPsr4tn36BIVUVDTq\n\
    VeSoXVQtN8Yr8QCFJFYTBXshzeQL5WZoJtrE30/BHBXUoFlTp9D3Aq/Czc9T0Cr9XxQeFNCkgvffvtAT\n\
    FFSquYWvJNie0kzuX2knBcwBpxqoqgN0f6KkTfIwBemSERkAn1kW0gZR0m0J+yiwOudSo/BCvY8Ums3j\n\
    FAiCgaELc+R195SWfIwCMUTVgxoyRG+d53Jfw24KjFmrLkEJGb+xrh6Hro5QwN+PKiQQPISHWlSsTbTS\n\
    MAUuomweNFKexXuvwsbQ2Cxwdsvwq4/jF5iM3kmS7+ViPwWvlr2EKZi6DcP65CFFYqw1DtUC4cvSzcUD\n\
    tXiCQvJaiYNeLbPYAsnDvMm2V3dSQJ9qzYGBKX37I77BhtVhCqbFyYISKr7VYNTG2xL2UdCs2XOgqXXm\n\
    tU8l3WvqExRghwXaF+XoPgxdhJNn+0o7KWA95xKdVHW9R1BDbWrDFDDPWevjZmVazXCCQVr3wvMeqauq\n\
    e3kseAjfjXDtmqo+7JGYnAvxY9VDjn4ZWrd5trV5+yhQhWpHBgbxQQFLR/j+8txNgWAkxXOQglczbN1g\n\
    0NDVRgWxYZKi8P0oxOavq1oMUqBCbkyPZwE5+mVoTWydhREKWdFHUSdxd8LryXbfSfspOGyYBicJSzfD\n\
    mGWcDHcnyT4KzkZUHisSwncjTDAXP3M7U7JaYbejHPBh0G04gMGrjQwmD5WE8WvvJIwDb+NHFP78/m8A\n\
    AAD//90QxuHVEgAA\n\
    "

/-- data.go:1026. -/
def compressed1935 : String :=
  "\n\
    H4sIAAAJbogA/5yXz4ojRwzGX2Xpa2zQn1Kpqt4gpxzSt5DDMOvAwoy9sT3ksOy756tO2EC7Fdp1Mxik\n\
    ln6lT5++TbeP19fT7Ta1+/XjdJhO1+vlOrXzx9vbYbqebl8v59tpar99m+5f3k+3+8v716kdmSmxSxE+\n\
    TJ9f7qcZ//386y9Tm7iqHYmPZDNZ49q0/kTUiKbD9Hr5jFB0mM4v7/gxnU9/fXq/XM7T98NDeLVapFIU\n\
    nnkWaoYMtArPP8L/8eV6u3/68+Plej9dt3JIFfOsYY46s7WkzXyVQ/7LgT6FNYhwleRRfPEZ/bHaWFfx\n\
    9Uf8t5f/L4GzOEcp5Eg6c27iTdcp9lEAZs+1RuGZZqpNrBGPUyBN1UvwkJCjzMwNVdj6Ie2iQLXmLCoS\n\
    xZc8MzVOTcsgBaSgkpyDNukyC9ISN1m3aQ8FqiUVd7MoPMuMqEot2SgFqu5eUs5RDqE+zipo1BgFZy5m\n\
    KYzvyzyjhjxMIVtCo4IUaZkFfL80WqfYR8GqkHigFqnPAntLCL9WiycomHA2CR5S6rMgKAHjgIfEAxSS\n\
    FaspmLXUZwGUO4i6ir+fQiIyjWahT1wvQcsiGfw8BYVacAkEzxYK0kwXweNBCpJzKtHusUWR0KKCkRuj\n\
    IJSpRKpqR7EeP9lji/ZT4ITFEJWQsX1mKkub1iXso0DuXfPC8HWm3BI6lMcpEGN9cqB6+ch5lq6oWD9D\n\
    FEo1LdmCl5SPon37463K+iXtplAKOABElEKpix5A99XzPIUC+4VpCDrkR4JaaJPy2KH9FIpDMSCtUQ5Q\n\
    AGlET2mMghOrxzWILC3Sxxr2U8japTt4rN4pYNxU4TGGKBj2Dpdg1AoyzDAXAJHWo/YEBSOD3Q4Uoxw5\n\
    zYwE8DBje6FgceI5lSi+QC5SY8yzDFMAZXAO1idS1O6RsDiTD1FQmFWstu3wFdM2Ex5RXvzFKAUxLiUH\n\
    Xardh0GO0CVbd2knhR5II9Gu/94jsiHa+ymwqJIGBqAuJwn0Ap5+bQD2USAzy7ytFkzdCHejXR/VYj8F\n\
    r7UoSEQ5uhtectDYveBV3Yi3Kff4dXHCuKpk1Kl6ydk5UCSk6BSWk8SGnKoXjEKu25uNuRthPCK4yLQ+\n\
    Cp+g4CmxRaR58WFpOXnG7gXPKAJTHcYvy82D+3/ttvdTyLjQo+MWKboZlp7i4bjdR8GgqRqc5ryc5uSb\n\
    p/kTFGBTUcT29uR/7nPFIKCKMQpJcLV5HN+74pk3WsffT0EtCSQpStHNsHcr+QB6i8Lv3/8OAAD//7S9\n\
    9CzREgAA\n\
    "

/-- data.go:1051. -/
def compressed1936 : String :=
  "\n\
    H4sIAAAJbogA/6SYy4ocVwyGX8XU1l2g27m+QVZZpHYhi2HcAcNcnO4esjB+9/wqBweqS6HmGIZiYEBC\n\
    55N+/Zqv0/Xt8fF8vU79dnk7n6bz5fJ6mfrL29PTabqcr19eX67nqf/+dbp9fj5fbw/PX6Y+MxVplovS\n\
    afr0cDsv+Nsvv/069Ymb5pkYPwunztaVPhJ1ouk0Pb5+Qig+TS8Pz/hl+vPz5Xr78Nfbw+V2vkzfTvc5\n\
    VJlrnKMuXDtrt20O+S8HCvnw/Pr6shefs1ohi+JzXrh14655E19/xH96+P8SqNXKpUYpxBYqnUsn2aSg\n\
    Hylezn+HFZAxvi0Kr7SIdk1deJhCbiUbW5BDZioLs5eg2xzHKORGKVdJUXxO3kmWO6dRCrmaVxBQkFnE\n\
    GwmgbYhCLjW3lsIXkrZQ61J+ikLhZpR5P4f6LBDmTTq3MQrZGj4lio9ZoOqdpDpMITXiVCVKIbqQ+Thr\n\
    HaKQVDhp0EfqFISBoNO2j95BwbIkiV7JZsqLSLedVzpIQZs25jA+2781yDgF1ZyJNUohEG4g0E7lI/H7\n\
    KUgB52iaER6aLeteSJvw76AgGAS2YC8kp8C5r9E3OQ5SQGzO0d5JTsFFW+7jH6dAVdlqQCHNQg4a48Zj\n\
    FEjIEgeCl5wCYW3aKniDFFJLpFWDcfY0C+Xu41CHKKRai9UWqGqeWbxRIXrEoxQgRu5ignFDiuYlYPv4\n\
    uL2fQiqYZ4hqFF6gFuQvxDZOIbdkkgPSBSPnq811e0v6IIWs0FQKaigzQy6w2Op9DccppJKkSlgCVx9n\n\
    OLG7Eo5RSDB6GvVRcQoueBn7f5wC/AXXqJEq1o+vNoPH2DbSQQoYNKzOOH7zvYONwNv4xymoEHZPINx1\n\
    5uIl+OrZCvcxCgK1KC3wL3WWVS0SdlobpwAEZtG8tfUmcXfR07ZXD1JgJRwMQSe11YPZKhfjiuQWA447\n\
    SuFm+LtTHVIka/AXEkFubsFwL6yyOkzBmmrNkRtu602CXpX7VzpGwSruESy43fhM6z2C4K2nrY08TMEq\n\
    Vea0bwCQwilAuAn9OuJUrWilEvgLhAcFVJB27tp3UIB/IYxDlAMUsDoTeml72x6kkIVFZN/AMLsHA1xQ\n\
    0DJMAcqN9bzfrEjhNswdzP1heIwC7BdI7/cpwuMoRAW+PMevNjNJ1dL+OHuO76tN7v38QQqaLbUcUBb3\n\
    YCgAjTr+HwwTxEqyL9xIwatkCAz99vA8RkGk4vgPZkHWc2TtI/6JWeCCD+0bDM+xuuEExdie/7sU/vj2\n\
    TwAAAP//skzWLjYTAAA=\n\
    "

/-- data.go:1076. -/
def compressed1937 : String :=
  "\n\
    H4sIAAAJbogA/5yYz2okVw/FX2Wo7dcFkq50/73Bt8oitQtZGE8HBmz3pLtNFsO8e45qwgTKpVB9N8Zg\n\
    I3HvT+fo3Po23d6fn8+329Tv1/fzaTpfr5fr1N/eX15O0/V8+3p5u52n/tu36f7l9Xy7P71+nfrMpEy5\n\
    iuTT9Pnpfl7wt///+svUJ26pzMQz6cLaRbrp/4g60XSani+fUSqdprenV/wyvTzd7p/+fH+63s/X6fvp\n\
    QwtKueJH1IJl4dw191Q2Lehni7fzX59eL5e3nfKpFePGFpZvi6Aqd7FNef5Z/o8v1/88QkL9wim8JckL\n\
    l+4Xtb0l+bcHUIRnqFpVq+zXl5nSwtLJOtdRCqlUapZK1IJ5odITjpCGKBThKqZh+bpQ6to65XEK2VrT\n\
    ElCQWcyPoLioQQrWSDBL+/XTTKjfgADDNEzBJFOtAYW0aqH1xN3GKKgrrVJYvi3MXa0LjVOAlCtLjXpA\n\
    C5I62rCMUUhJWiu8X1/dkTBJ5sM0TEGKkEVy01UL0Bp9lNsxCsKaSw1uCOWLO1JKPW1v6AEKrEVFAtdT\n\
    1wJM1X0brscDFKjA8EpwBlsdCYNaOsmm/nEKxBWuGoA2/IevHpdb27Q4REFaJpUcQDan4G5Ru9VN+eMU\n\
    pDYm1sAxbHWk6reUeIiC+Gpu0SRlmN5CoPxjksYoSMmWUguMGy3qIrCM1CUPUShkmjXw7DyzrdtZsHnG\n\
    KeSkjVtAIc8Cx3CZrb49QsFyw4YOTNsDgA+qnyENUzAWqpGci1NwR9qR8zEKqi1nDigUpwC3S3nNL6MU\n\
    UmlKHOyeMgscI60xj8YoJM7FahAjy5zIHQn1rQxTEKvaSgC6Ypb8CG56W9DHKKAOjDssz+tmk/qx/AMU\n\
    WNSYwh4Cx2B3Pd72OEiBsiaE1bB+c60ZZnVrF8cpEHxbJdgLzQMAHM+ghaG9gDJY/RzMUfMIBsMzaGE7\n\
    R8cpcC1EJcphbRbyPI8EoGNa4MqcW3wGKb4XVLsOa4GLVkhhf/UwrQ9DXNOPAPB4RoKW8eZJ+5BR3oOw\n\
    uZppm/IeoJAZpAM5e4+2rraK7TaUVNlgR2bhGWS1CyldhpMqsgUeVUHAYPYYRshI1m37JDlGATIzkX01\n\
    o7wHYaQ8SG381YZnM+Pdub97vEf1jIT1M/h2ZnhqyxYMKq8ZjPztrNtBPU5BknGRgIJ4DPvnyTNGgRHB\n\
    xMLyTsGfU1225R+ggJ2A1bDvGN6jLEjaMNUPH2EOUiCF1DTQgngG888jtJr2IQq/f/87AAD//8dwhZbV\n\
    EgAA\n\
    "

/-- data.go:1101. -/
def compressed1938 : String :=
  "\n\
    H4sIAAAJbogA/5yXz4ocRwzGX8X0NdOgf1Uq1RvklEP6FnJY1hMw7O44M7PkYPzukXoXG3pGprZhDIYF\n\
    qVU/6dOnb9Pl9fHxeLlM/Xp+PR6m4/l8Ok/95fXp6TCdj5evp5fLcep/fZuuX56Pl+vD89epzwhgqtIM\n\
    D9Pnh+tx8b/9/ucfU5/QuM2A/luw9dI62W8AHWA6TI+nzx4KDtPLw7P/Z3o5/vfp+XR6mb4fbsP7vyaW\n\
    hrcFpSN1xk14/BH+ny/ny/XTv68P5+vxfC9HK1QBS5YD6wKlF+5QNjnoZw5/p7QGNSSzmsUnXqB19Miy\n\
    ic8/4j89/LoEJSDSlAI7Be5c9lKopTRofD88zdAWj8rYi+6nUEytlOSVaEZZULvDvnmlQQqFWQpSFp9o\n\
    AekkXdpuClK5aUlSsGeJRhK4TTFGQYBYTNLwFn3kkKHup8DCoNks8PssOAXZOQukRYQgi0+yAHoBnWA3\n\
    BfKBrpyWwG+KRLcljFFAR4CWVCAz6IIlphm3FXyAAjRV0zRHzIL5E3X2HLiDAqCaQfJEErNAGJRL2cQf\n\
    pGBmJR4pESSZGZaA7LJnmwwDEMya1Yol0aMyQ12IYpZBN9FHGXgK9j6qLUvhCMA6RyPtQGCm/v0CaQVO\n\
    IAS7dt5WMExAXfLqLzKsm7PYqtkfJ1CFpUnyPNUThE6w7+Xt84wTKFpBa1JAnZFj6YjvhG0BYwQKVAJJ\n\
    xLrOhAtQyAS3vQRE1Icgz6DRpbH3txmGCHCzYtk2UB+y4CvVf7sJ+Ai4FCWQdUZv0tpjH+ybASrYGqUV\n\
    EMQMuNDxtoJhAugMuCU6qkHAd747O9nq6BABZKlSku+PXbN2kK37eCcBqALGmqVADBkt2oX3EGghc8oJ\n\
    YA/fYg+4r4Mt4FECzXclYU0LoLK4eQ9jty1ghEBr2qKH7ke39+OD6q1IDxNo7nuFslVjYbr8iXwV3Kya\n\
    MQIqsQYSjbAZ1w71J5K9KuQ7TJkyx2VxfQRjv272zECrhOwQ7kZHWAn4x8ftsZtAKQyYWNJIYe+beNd5\n\
    Zn5c+vWX6KiHD8frXuuOqx4mIEwu1mmGt/tPcFXqjxpSH+DKFfn+hezR3e6C64OfNnsvZGtkjljutxBi\n\
    WN43u3Vj2scIEPvhh/dHzMOH23WviJ221+UwAdRKrd2/LT1D3H6wLrLtbTlEAKFoSa5jjx5e160orEZl\n\
    JwE3Kk46IUDr0QHdIZRdBNSHTBWS91lvbx9el9Kb9xkloL6KibMupXBbHj4addulIwTUnShb4uUiukWD\n\
    FhfS7eGdEvj7+/8BAAD//6pZ4csTEwAA\n\
    "

/-- data.go:1126. -/
def compressed1939 : String :=
  "\n\
    H4sIAAAJbogA/5yYzYobVxCFX8X01hLU//15g6yySO9CFmLcAcOM5EgasjB+91R1ggMtlWlfsGFg4FTf\n\
    +u6pOne+Trf3l5fldpv6/fq+HKbler1cp35+f309TNfl9uVyvi1T//3rdP/8ttzup7cvUz+2UmoVbHCY\n\
    Pp3uy+y/+uW3X6c+YeN2BDyCzoSdoSN8BOgA02F6uXxyJTpM59Ob/zD96TU+vF0u5+nb4UGeoVGjTB5p\n\
    Ru6IXepGnr/Lv55u9w9/vZ+u9+X6pIIZFrS0AkFUoNJxWwG+Vzgvf2ffr41AEFP1OqN0bV3aRh3/b8/n\n\
    6w8PoOwFoD4vQUeQGUpXr0JDBKRIM0sA0xFxBulInbaAdxMQEIaaHgDbDLVT7bw9wC4CzAXAWqZOZQbn\n\
    q51xmACV1rDa8xIcHsDqyh1liABhRc76w+GBsJg9At5NAKUoUMkqkDN2i7XOPEIAKlOBhACvHqAeNhgn\n\
    AKSmlthMVg/4JXUTb222i4A1g9o46Y+EB9BiCsG2P3sJWG0+g2rSIwkP+NezepGPjuInCVhlEG9Spk42\n\
    Y+vEXWGjvpuAlYKokhxAnfPaInk8wD4CBdh8mGbyQcBvKHTZyu8mYGwVKemRrlNIO4kXGSGgpaJJMiI0\n\
    CMR8aOuIGCSgaAyYHMB81oUHoD1C3kdAxK8RJVPIjgjRn9g0NEqAKzXPEmmFErvS5xwNeYBJC1KqThLf\n\
    z7LugUECZOhTNGlR8X0fJka/RdsW7SPgMcv/ayrfZgKn20FHCXh/ChhnFdBmog4+rMsIAShk3FJ14tgD\n\
    HGFrmACAugeSPVCOjJGF4gq1EQLaWAlqIl/934zuYk8qW/m9BLR6Hq3ZrqxH1DCx8tge0IpVNdsyNfY8\n\
    RZB7VN9NQD0tomgyhbyEX1KOKYRDU0i9OSYtOUEYObKQpzkY3QNqxEJFsgq43tKwgY0QUJ9DPucy9Xht\n\
    YHiA6zABaeS7OFk1bY1bGnEatqtmHwGhfA8gBAGweC8N7wFl82uU3FKv8F/efXJLdxFg8BefPW+PqzsB\n\
    d1hkoeFNrMS+iZNVEyVqTCGhNfAOEMDC4j5+Lo8RdvHfF9noHlBEd3ESJbxCvPnq+qQcyUIKUqv7OFVv\n\
    kYXCYcNpVFoFyh6tXoLWMaG6hrmffw+4w4CYn7sYKcIuRRTtMPpXCefb2PD5FPIKnrb8AOJGs4EXmZTm\n\
    DFquXkM94txWfT+BQlIpP0A8OXxQNz/DHgJ/fPsnAAD//zBFxzihEgAA\n\
    "

/-- data.go:1150. -/
def compressed1940 : String :=
  "\n\
    H4sIAAAJbogA/6SXy4okRw+FX2XI7V8JusbtDf6VF86d8aLpKcNAX8ZV1XgxzLv7RC7GkFUyMeEmFw0F\n\
    Uio/6ejo23L9eH4+X69Lu10+zqflfLm8X5b29vHyclou5+vX97freWm/fVtuX17P19vT69elrdUS/qrT\n\
    afn8dDtv+On/v/6ytIWr0Uq8kmxkzXNT+h9RI1pOy/P7Z0TS0/L29Ip/lpen6+3Tnx9Pl9v5snw/3WUg\n\
    qTXlMEPdWJv355CBfmR4O//16fX9/e1BdFeRVMPonDcuTbjZMTr/iP7Hl8u/FmCp1sIWpRDbRBseSocU\n\
    8k8KYIgqMBYvRaPwyhtbs9I0zxJQMCBNjzPISmWj3Cw1shkCkp3Eg/eXldPG0tybHd9/nICwJ5GgSWUV\n\
    3ag2T02OTTpGgD3nYkF4BYSNtCm+D8LzFAEqJWvUpdpngPYWEj1kGCJAXMUlIKB9BjDDYnsH8RQBrYm9\n\
    xgWAgFDTBwUMEdBKIrmGFShtnEG30bGCUQJalLNkfpzBVsobRAJSYXWCgOZkNVvweWxl32fYGh8/zziB\n\
    TGhSrVEKgVD73qQ8RSBZYlMJw6ND+8dpUmYJeHbLOWDsnQD2AITojvEQAWcuyQO+vrJ1vnh/OvIdJ2CO\n\
    SaNARn2VXaiVm9oUAS3VWYMe8p0AKkDgYw8NE1AhsRq0UMKzkTR00V0LDREQxzamQEXTytqje9lFepKA\n\
    EPZY1EJpFdp2+W9ybKExAqySNAeLHuHRoRUjjFU5S4CSV09BARmY+66U3HhqBoiySAk6KK8sfc+r/wcV\n\
    EiB21wAyUsDMUXPb7eLPE8DLe/FoD+SdgCD2/B6QwvCLOSigYNl0nYDU+bGAEQLSJY4l6KCyMu0ah0Vz\n\
    7KBxAgm7MkV2GinKPgNyD3mMQOLqEk1xWSV1L9EX/awXEveSSw1ktO4XB1rUdzf68wSc2GBJw+hlNyqy\n\
    XxuTBOCnCZSjFN3wehfqu1U5RkATzIoFM1D7udFtSr53c8MElJxrYCW4Hx29S/ummdkDIpYhRHH0/dro\n\
    JRyjjxPgnLkEY4YUIIB7gNP9mI0RYNh158czgPAg0G2K3WvEMAEAwKQ97lJkgN/t96Te7/oRAlwrM8tj\n\
    L8Tc97xId1o+7YVwcBBBTKMUMLz9oIFSyAwBLm4wKmF4mF3cAzC7dgw/SoBzTfCLj6esZ6i9hUzurcQQ\n\
    gaya3QO+0gng/aHTNq1CnJJ2uxKl6IYXQodFNuWFOBHhJAhGTPZzQ5r1i2OWgBuXGukEMpS+iT2PqdDv\n\
    3/8OAAD//w/cj5ACEwAA\n\
    "

/-- data.go:1175. -/
def compressed1941 : String :=
  "\n\
    H4sIAAAJbogA/5yYzYobVxCFX8X0NhLU7/17g6yySO9CFsNYAcPMyJE0ZGH87jm3BxxoqcL1BS0MhlN9\n\
    66s6VTXfluv78/Ppel3a7fJ+Oiyny+V8Wdrb+8vLYbmcrl/Pb9fT0v74tty+vJ6ut6fXr0s7VrbsRuaH\n\
    5fPT7bTiv379/belLVyNj4Sfr2xNa2P/hbgRLYfl+fwZSnxY3p5e8Y/lry+X6+3T3+9Pl9vpsnw/3IWg\n\
    LJQ5CsG6sjTyJnUXQv4LgWd8ej2f3x7Iq2Ump0heaGWoSlPayesP+Zen/32AlCRuOYyQtwdYY91FoB8R\n\
    3k7/RN8vnCpVe6wuR7KubtwsTRNg56IaEJAjywplyc3mCFDVhByF8mXl2qg0tVkCJLVqLlEESSvST9pM\n\
    JghQdRRplB49EtQLpO/TM0yASs1cRaMQHz1guXmeIUBFaxUJ8qO9B5AcF/wmCVDOyiXXMEJehWESTXiG\n\
    QCZJloMetu5CEEWGeN/D4wSSqUgKUmRH5lWkP0D3KRoj4MUT6iiUL91He5Hu8zNMwDmZc+AT1nsAEcTu\n\
    fWKIgGEQOAUEfHMhSJcmICBzBBRNUGpgE94JUO4EyHYhxgioUtaoxbwTQA/wR4vJFAFJBAaBT/jmQngA\n\
    ZmXdRRgiwHA40mDKJNjcKujhBJubJsCaHEYRhqjbsNcmZYoAZaspBQTSkVGhmDFosWkChFXFPIwg1l0I\n\
    fSz7CAMESq1GhTXYhXInQKl3mPgkgVJLUfEaPAAhyuZCCaNgggDkuTh7+IJOgBqK9O4FgwTQwVYdbh1F\n\
    AAGqTUvjfQkNEUilWK7h9yv3XU7whHkCSaqqBUZXEKU3saJO90Y3RsATJxhdJM+YZBj01HhyDpQKAFQi\n\
    AuUo0rctNHEn8LNzAOpY5bDQheqwiO7QzfffP05As1mKJnHdTg7sipOTGPJkGJTBnKx91UIBKTxiPyeH\n\
    CQh8okY+UY+CQeZbCe1vpiECWNUtUfj9H5sWmsxn7wGEgE1IMMiYtnWr9hTpzD1QsEzkgjKK5Puyi0mG\n\
    375CRwnA6FLBMhRF6Def90lM+weMEADgmlBGoXrucwA9cHdRDhMoBTaR7fEuxH2f68sKUfP9yTREAIs6\n\
    wyRC+X7weXOkaPIiQwSVnIN7oEeofWPvF9nEPYDsZEOBPu4BqMtmEbhndLoHClpMJQUpwtmtvc0Q4i5F\n\
    YwRcvVp6vM1BHssuyhP7tO//ZjBMAE0W5+jj6uZtG524B6DOGQvvY4+DeifA/Sb24b8L/fn93wAAAP//\n\
    iAL91KUSAAA=\n\
    "

/-- data.go:1200. -/
def compressed1942 : String :=
  "\n\
    H4sIAAAJbogA/5yYy4obVxCGX8X0NhLU9dzeIKss0ruQhRgrYJiRHElDFsbvnqpO4sBRlzk+oMXAQP3d\n\
    9f116y/L/f3l5Xy/L+1xez8flvPtdr0t7fL++npYbuf75+vlfl7ab1+Wx6e38/1xevu8tGMpLKkWlMPy\n\
    8fQ4r/avn3/9ZWkLVqEj4BFoxdSEG6SfABvAclherh8tEh2Wy+nN/lj+MI0Pb9frZfl66MNTQaZMUXiE\n\
    FXIDbVS68Pwt/Ovp/vjw5/vp9jjf9hSIK5ZYIa1EjblxrwDfFC7nv6LnxwRYIUwPiT8/S9M+Pfh/ej7d\n\
    vvsCUAFR676Eq6wIDaUBThEAygmghOHLitqUG9IkgVxTKVIxUkBdEZ0x1AkCuQIB1/D5iVeQJtCgf/5h\n\
    AtmKAKHAvgTbb7XI5iKAGQI5Z/EiC8PXlay+sMk0gYzMJAEBPmJeAZpaGUwRSCIoHBiUj6SeHqAmvUHH\n\
    CWiuqBy8gGw1wF5m1L/AGAEllCoBAfEaAGtystUATREQzZI0RQpeA6mxmkinMESASwapOYpuNUDWIsxB\n\
    3EUfJ8CkHm5fQp2AWchdVDqJMQKUCnHUpS18Xq3D4T9deo4AgZtUIwUjYJ1aDLPOEEBG69NhdCNg6bcf\n\
    99HHCUD2aIFJ9cjbqKTauDfpGAFPT4LAQ8kUvAuRmbT30CiBVEXNqEERpyPy1udomwM/TCBZH2LDEEUn\n\
    9DlvNSx5lkAqWGqJGp1JFDcp1EY4QyBlrcmKbD98dgLo9bUN+jkCqVgsCRWMgL+AzYFeYYhAIlsloi6a\n\
    nYAZFOnZoOMENKntXIFJTSKvhN4moDfpGAEFASyBh4q10m2SWRfqPTRMQJi900UKSCtsVYZ5YhInTrVa\n\
    iYXR6+rpt1HAs5M4MRJptC6WI6Vt3bKFt19WxgiQ2JwsgUPrf+cGNu13iWECmAtVCSZx9YvDFNQKTWYI\n\
    IGaxBIXRbY5lOwYa6jQB0FyAAwtVPzlsYWfaGt2PE9Bq54by/iRG2AjYsmujcvYi00rMjPsWMgW/+ewY\n\
    kOd9d4SAWo2ZgfYd5NGTTxnrojS9jardTJx530Im4Uff9gLUW2iMgO1aIrRfxYjbqmV9tG6TeI6ADQJf\n\
    6EKF4jXgRu1dOkTAioA0B+nBfzcttbO+T884ARWtLOELEPkcIHkuszEC1oQqBx89cDu5fUiW548ewwT8\n\
    YqJglcDt6jYFrc8uHSLAmnKlMDpaiyjWH5676DgBKj6N929ik6CtUVsNzN3EdpAVOzj2d0ULb8uuF0B5\n\
    /mYQEfj9698BAAD//48dOvUDEwAA\n\
    "

/-- data.go:1225. -/
def compressed1943 : String :=
  "\n\
    H4sIAAAJbogA/5yYzWpcRxCFX8XcredCVXX1T/UbZJVF7i5kMcgTMEgzzsyILIzfPaeviAOtqdBqfBcG\n\
    wSl1fXXqR9+X2+vT0+l2W+r9+no6LKfr9XJd6vn1+fmwXE+3b5fz7bTU378v968vp9v9+PJtqWuJHM0k\n\
    h8Py5Xg/bfjRL7/9utSFTcNKvFLaONRQqubPxJVoOSxPly9QosNyPr7gP8v59Penl8vlvPw4vFMn5pLF\n\
    U+ewEaTb16nzT/U/v15v909/vR6v99P1QQgKZCWzF0J4Y95DWBdC/guBJDkvUEuSLfnytpFVpCj28uGn\n\
    /PPx/x6gRlGj6uMIslLciGqgGtMEAS2qMRaHgKwsG0SVKk8T0JxDAgUvhNBGqWqqTFMEMhU8wJfPG1uV\n\
    AOFZAimSkToRwu4BriG9jzBEIMIALI7DQvOAgC9X7h02TiBy5pDdB8ADyA+3KpoigAoKok4Nhd0DUqOg\n\
    TcwSCLBZyuVxBMXXHhBjFfmMUB8lEMQSpeypwwOcK8UaQqc+TkASl0JOirR5AD2ifaULMUZASPACB7A2\n\
    D6ALgYBQJz9MgPFPvTkQG4HWRkEgzxCgLJKLeeqNANeIQcPTBIhyZvJD2O4BrbEPMUQgmJoZu/KCHoEC\n\
    0qq9/CiBUApGDTkeSDDaPgfwgBkPhMIxkzoeSCvzRlpDBIRZAiFH2CA5HkCIslGuLUtTHgjJMqUUPXlB\n\
    j4BqQZuYJZACJZb0OELGsNlQP4o06QyBmIg1OHM+r4wWUapglKVpAhHrlqpjYoTI7QHIUuhNPEYA0qri\n\
    EMiNAAZ9MJTRLIGQNYrnsoKFq0XAJ73LhggEaquQkx6oY47FNue5T884AdFsFt0QHPdhr5X6YT9GAEMm\n\
    J3N6RFnl30lGMjmJA/Z1Uc9lZQ3UHhDfXPbhXQgAuFB0WoShiPZrA3NsehsVM5RQdGxmK+ve6AxVNENA\n\
    LEghcgBbW7XQgpoNesCjBARjgJmcWW9t2+KWoH3Wf5gAjhmcTI6HmdquKxB98/AkgaykXpEiBBbe1oWw\n\
    TfRFOkYg5YiDyX1BIyDQrtK/YJgAVq0AI7gR3vZdYO5vviEC+OUDjoLH6rzfe3uTlj494wS0xJjSYw8g\n\
    RDv6Wn7Q66YIKGdspI/nZJPfVy1t29YsAUwyU+egQYR286WWo3cn5RABMSF2mjTLvuui/T9o0uMEECNx\n\
    dFIkbd1CoxaE6FM0RoCjcfbyIzsBqOJkmr2JhSwakVNC+9WNBKmN/VXijx//BAAA//8mFBWOoBIAAA==\n\
    "

/-- data.go:1249. -/
def compressed1944 : String :=
  "\n\
    H4sIAAAJbogA/5yYy4obVxCGX8X01mqo67m9QVZZpHchi2GsgGEujqQhC+N3z3/awYFWV9xzoAcEA1Wq\n\
    /qr++ktfp+vb4+P5ep3a7fJ2Pk3ny+X1MrWXt6en03Q5X7+8vlzPU/v963T7/Hy+3h6ev0xtLkKKv0qn\n\
    6dPD7bzgX7/89uvUJq5mM/FMsgg38sb0kfCBptP0+PoJkfg0vTw848P05+fL9fbhr7eHy+18mb6dNim4\n\
    ZklJNUrBtDAi1yZ5k0L+S4EyPjy/vr7shSdOpDkMXxZOTaWZbsLrj/BPD/9bQDHmLGEG8Z5BrOk2A/3I\n\
    8HL+O/r+uWhK2fajCxIsVBoeS8MEMjubBpCRoi6EAmrTLeRjBJK5iJUoPOdegQkgjBLwkgpxQEBmsYWk\n\
    eb1nfIiASxH1ILp2ApgBo/voxwmY5+wczID2GUBkAeexGdBKQjmF4fO/Uyw2SkBVUIFEGUCAATijhhEC\n\
    krk6exRdeWFtas18mIAQM579FHggE5AghRB9RC+9mwBrMtOAgM2c+oihQzsBGSJAuVQpwTuyWaDUEDko\n\
    tW8yHCJA7FSiCbNZaVUhqIRuoh8mQNXcvAYz4J0AdQlaZ+D9BKhARy3qIZ/Zew/hoe37OUqAilh1DTOA\n\
    AN4RW5MRApS9kEkYvROQTuCO73ECqUIkJBjihGcR6k2qZYhAUtYcrZk0sy6cm+OhUQKeyTmS0TQL9SHu\n\
    SrptoUMEnFg02sSI/l0iMiAME4BE5JLqforcCfQZK815iIDm2q1KFJ6/awStKj1GQNk1e6BzuROg3Mwa\n\
    bXXuEAExqxqJdF4JcHdathXp4wS4YJNpALlA6xZMsPE95GMEWDAFOQBcZoabs+aKDKMEyKuHbqt0vwvG\n\
    4s3l/QRyrVgyGm2ZMkvuRgUdNKxCSCG1WgoKqOvJgQKk8baAIwRyLVnMU6BCtZtd7u2JwGMEkAFToBJ0\n\
    ae1uq7sV6Fx9vxfKFc3JYBBFl3WPURfSQS+Ua8rJ0Ua7KZg6ge4VAYEH3CjC4+BIvj9iPXztmwx2UbYX\n\
    zWECbskyhQX0iyN1v+jbAg4RMEAodd8LITq8LnyildULDRIwkYSrOErRDS/uSUcNQwQUFzH80H54XPV5\n\
    3WQFTTpKQEot4vtDjAxwW3hHOClpe/MdIiDiNQVeCNFFu9NynHyj9wD2JC5KqgEBXu0Wo3+wy4YIMHZZ\n\
    on0VYlkJQKITpHSUAKlaDn73QIbud3v/3HfpEQJof8G9GnSQdK/LuGfs/kebwwRKZfjpYNn3FHUtoKwX\n\
    2c8J/PHtnwAAAP//a5NV1AQTAAA=\n\
    "

/-- data.go:1274. -/
def compressed1945 : String :=
  "\n\
    H4sIAAAJbogA/6SYy4obRxiFX8X0NhL817q9QVZZpHchi8FWwOCZcSQNWRi/e061gwOt/kO5grUwDJyj\n\
    qu+/nNKX5fb2/v3ldlva/fp2OS2X6/X1urSXt0+fTsv1cvv8+nK7LO23L8v94/Pldn96/ry0cy7FjKSU\n\
    0/Lh6X5Z8aeff/1laQtX8zPxmdLK2qw0lZ+IG9FyWt6/foCSnpaXp2f8Z/n0dLu/+/Pt6Xq/XJevp71D\n\
    zjkVksiBbaXU8NGyc6DvDi+Xv949v76+HKlzZSqhuvBKtH3/vTp/V//j4/U/D5A8sauGFmWl3AzieWch\n\
    /1oAQ3QC7/+sHsvLmXxlap6b8iwBF0maU+TAsjIuCJhthoAlVwAO1etKFdffjKYJaK3KNSAgZ8lrV07N\n\
    5giolEQ5qCE9E+QdDdBoX0PDBCSV+I506wFrDof9HQ0REGaibJG60CrUGOppmgCbGHNAQHsPoITMZgng\n\
    9jOXQN56Dwi3fgjIyxQBYktVgx6wrQcMLdbIdg4jBHJ1r8JBD9s/PWCpCe/UhwlgUnuuJYBsvQdAGE2s\n\
    aWcxRACEixL5sXz/rFQaaWOfJIAtwHAIDuBn5lWkCRz2BxgikIk4RSPCNwIoH94KdJJAkpq1BCXk2xTS\n\
    5nDZl9AYAU/OpsEUSuiylR2Xs02hOQJOmHUeOjD1TSy5yd5hiICZlpI4VEeB4stjkNZpAprhEbVZOgtW\n\
    ZW690/ZtNkZAWXKN9kDGptnmaI9DswTEteYa7AE41M5YE6pohgCXLFKDHs6dQO9h9IDP7oHMXLN7jixA\n\
    AD3QS0hn9kCmRKlaeD+KGaHblN7vyVECqdZqmHTHDgWfHiWw631mE2MAkVYO0nQ5c+rqAgj7ND1MICGO\n\
    ZgSWyEK0B3akiYfAPkQAIaWIpfB+lHpSMX9Mc8MEMCg4R11WtxcHHL512Y8TSFmTebBlak9aPevW/5GF\n\
    UmIhLcEUqv3JgbCCZe/7wD5GwPEYUIrlS1/0Yo/ywwSsIEnk4xJi6gT6HpDHKh0iALqqcrwmod6zLt4D\n\
    uTnWJM0RUEdm9+MihUV/9G2BXWlnMUYAMUUxi0L53JOK0qP8MAFRJo4I4NVtfc7h2SeycxgiwImzB1sG\n\
    6si6fYrq4/cfJ8BkgtQeWmyLDIOIdYoAGdJEkBUhL9uvEpijPStOEfDa54QcTyGWTgBzAm3AZYIALj+T\n\
    p+M0yt9e3NzTtOdZAl4MR/DjMcHfnt2C99L25PhxAr79suLHaQ7yINCzBDWrgwR+//p3AAAA///7ep/7\n\
    pBIAAA==\n\
    "

/-- data.go:1299. -/
def compressed1946 : String :=
  "\n\
    H4sIAAAJbogA/5yXzaobRxCFX8XMNhLUf/+8QVZZRLuQhbiegOFeyZF0ycL43VPdjh0YqUyrrVkYLpwz\n\
    NV/Xqeovy/X95WW9Xpd6u7yvu2W9XM6XpZ7eX193y2W9fj6frutS//iy3D69rdfb8e3zUvdJE5oYld3y\n\
    8XhbD/6nX3//bakLFrE94B74gFSpVMZfACrAsltezh9dCXbL6fjm/1lO6z8f3s7n0/J1t1U3ZSQI1REO\n\
    BJXsXh1/qP/16XK9ffj7/Xi5rZcHFupaGWOLdECpYpW2FvS/hX+kqAKlApYtkic9gFbAqrKR5x/yr8ef\n\
    FiAGoBY4kD8H8AL43mGIAJdiiTVUL02dUhWdJsBcsLBEFmjfLWyKACVIZDmSJzkAVc5VaZYAgSRgfOzA\n\
    vQdydRMpMwRQjFMK+HLrAe8w4CpbvuMEIDNz1MTce6BURH+mCABSMQoAc+sBcgKeEVvAowSkKDClgID8\n\
    1wPOeIqA5EL+g1A9txTyNkaYJSDZ314lOKTSesA/v6TKfkjxaQLiScolUSTvPYCecB6leSM/TMCKmUrg\n\
    oB51LUbRC9g6DBHwt4ekwQHVRgCsugHgRn2cgCbIAGEBLYU8Q7nitoAxAq0Jwh7QnkLaMkJtloAIs2dR\n\
    5MA+K33MQJUpApxFSwrmQHsODhf80WkCjKLCQQG2R2kpJHRfwBgBkiTAKZIn6ifU5XmWABbAEuWEO5TO\n\
    2BzCDAEPUQYJMi41Aq0HtGqZJgCarUjQZqkT8IyQPgeeJ+CrhLR/kTxhy1GlPgemCHBhy+Egc4fcZqVK\n\
    3xefJsA5MQIFIZ09SHuHOYRtSA8T4AwsHMVo3iMdiNsudBejYwTaGWUKTmjeE7RdqC0r2xM6TMAylXAO\n\
    uIO1WQ+Tc4ANDcGCHi5901LPB8/paQI+hRNy8InKHrFNYhfH7ScaI+DLhPi6GMr7JGvL9H0FwwSEMiEG\n\
    XVb6jcNjVPo6/TwB9ojIwbKO0An0Hr5THydARRjy46Bzi2+XPsEedM9vo0xsQvCYQJP3ZZfbjbURmNpG\n\
    GRMxxw4+672JGStvHYYIICBbpI7fd90H7z9OADyq/WIfWpR2SL0NaHvlGCJAJZNm5Egev90HfCFNkwSo\n\
    oN8qgxRyB+K2rbRBlicIUBZfSDU4oNR2XerLOm0P6DABSlnVfmKRWwFK9xZjBPynVh5PMpd3Aq2Lc6XZ\n\
    OzGZJssYFtAIcNuF7gp4RODPr/8GAAD//2pFIhygEgAA\n\
    "

/-- data.go:1323. -/
def compressed1947 : String :=
  "\n\
    H4sIAAAJbogA/5yXy4obZxCFX8X01hLU7b++QVZZpHchCzHugGFGciQNWRi/e051jANtVWj94IVh4Bz1\n\
    /9Xl1Nfp9v7ystxuU79f35fDtFyvl+vUz++vr4fputy+XM63Zeq/f53un9+W2/309mXqxyJJmSrlw/Tp\n\
    dF9m/OmX336d+sTNypH4SGUm65a72keiTjQdppfLJyjJYTqf3vCf6U94fHi7XM7Tt8NW3gpLyqE820zS\n\
    U+m8ldcf8q+n2/3DX++n6325PnIgYmaJHERmqvj13erGgX44nJe/o9+vamTx8yjNLvrgefi/5/l8/d8P\n\
    kJKT1vLYQo6UZk49UWcdIiCs1XIozzIL91R72srvJsCmUlQjB2FnTNypjBBAdQpTrF5nap2561Z9PwEY\n\
    1BJZ6NoDigpFnY4Q4JZSo1YjefQA1y74J4MEuNZiuXLkgB7g0jV1bh+dw3MEuEphKhaqN1dHjUreqO8m\n\
    wCXnxpQeW9jaA9mfiNPGYh+B3KpbRPKsq7z2hC6WIQJZJZcafoD3ABxo/QB5mkAqprkGFWRrD0AaY042\n\
    6vsJJOYkEYHkBPABSX/+gH0EzFikUiTvBFD6tRuNEtBSMYRa5CDkY9SsC48QUOFkFmwZqBd/HnRYqsME\n\
    JCU0QgA5o9N8UEvptIW8jwDXhBoNeiD7HkAN+R4Y7gF8gREHcwIOdUaLSV7nxPMECAMuR1MoHwUjAnDT\n\
    z+q7CVBrLVcLxqjPupmla1vH6PMEqClZzqE8s8unBIdBAlQRWGoOqrQ4AVQp2kC3VbqHAFUkCY1mXHEC\n\
    XkGKNhgm4HMuSdADFfveN3HizkM9QBlRiyiYEZBvs4jvAd7OiN0EMjcVCaq0Hjk7Y8e83ZW7CKRUMYgC\n\
    vvUoKFD1AvWsO7aJyWrBHgufSPl7lDAe2cRkonGaa3DwcwNTiMtGfjcBFFCpUdpqnrawhr+nrecJKGHV\n\
    czBF23ptZLxNFxsm4C9kFpRQW0+O0g2DaFtC+wgwHFp6/AVMHnY9TBNW5SgBnGNYxqGD33zIi7TefM8T\n\
    IDNKwR6AuhMQVx9Oo7m1gkXTHocVt2i+if2qpAECkOeCNBd8Aa9hF1seaT2P3QNIuz4oKHTwm4/8ItOt\n\
    ww4CuYEtNX7cYVBH0sLzIGnZ9p7ZTwBHZbagzdyi+lFveW2zpy+y3HLWFqV1Xk9u32TIu2mUQALlFqRR\n\
    Xq9uXwL/ptHnCWBFqvLjJAF1z7plJdCGCSCp1BKNCfHA62O07CTwx7d/AgAA//+e2wceoRIAAA==\n\
    "

/-- data.go:1347. -/
def compressed1948 : String :=
  "\n\
    H4sIAAAJbogA/6SYzWojVxCFX2XobSSo3/v3Blllkd6FLIRHgQFbmkgyWQzz7jm3DRNodw3tG9wLg3Ed\n\
    3f6qTp2rb9P99enpfL9P7XF7PR+m8+12vU3t8vr8fJhu5/vX6+V+ntof36bHl5fz/XF6+Tq1Y6pGNbPr\n\
    Yfp8epxn/OnX33+b2sTVypH4SDozN7ZG+ReiRjQdpqfrZ1TCv1xOL/hlej7dH5/+fj3dHufb9P2wVlDj\n\
    YtkiBeaZcjNvklYK9EPhcv7n08v1etmoLpk1aQ2r1/75VZrxqjr/qP7Xl9tPDyAs5pQiCUn9AF3FVhLy\n\
    nwQwRCdgN03Jt8sLnhlVcQL2UQJUTC1JpMA0kzaCQhkhQOxJKSCA6mUmbm7NhwmU6kVSokhCbGYQ8GY0\n\
    QqCUWkiiDtVOgFPTjQ7dS6AUyfITBRAQ7gcYmoGSE0uuwQxrJ8CK0s0wwzxGIJOx1gCyHsVnssb46LyS\n\
    2EcgGZPVvF3eMGV9isUb6ar8bgKeqbdRqACfwAFyE1kp7CLgVJg5sAg7cpqFYEFNbJiAWS2ZwwOI9gNI\n\
    wRwPEVD8pMzb5b0TIMxXaVZHCSi7Zw0YeycAF1J+z3gXAXFPWQKL8E7gzYW6RQwS4OpSaygBAqisqfla\n\
    Yh8BFvSRBFPsR4VHaDNrup7i3QQIPpE06NJ0pNx9wlOjdZfuIkCkWnNYnW0mWBD9jxnISCvKUQulo/By\n\
    AIzBuoV2EchwOakUAEb52vdAd6E14L0EcqGczYMpyxCZRRpVPAMEcnbKWoLXk48Mi5Cm1Hj9evYTgA8V\n\
    i2YgdwJvQzw2A1hkprUEayZ3Aj1qdYVRAu6GuBjYaB+07nN9XY7sgYwdJurBni896/Y9gCcNEzApiBNB\n\
    C5Ul8JYeF33dQvsIqFdlC8sLPKIiSDQd3QNZERgp6tK63DikIQ75yB7IYuIpBR1Ul6yLHenvO2g/AYZI\n\
    1cCo6xK3qBu1rI16HwEmh5MG94G6XDdg0f3KNEqADE7q2++Iqefd3qUdwgCBVEtyGF1YvfY9hjckw5u4\n\
    35mq1O0xg0S/cuhi1Osx20UAa5hho9szgPIIu4haJu9dei8BbDJc+ThQ4CVtgbEuCh++D2AIMMNlu4N6\n\
    9dL3mCGorG+U+wkkrx5FCUggbr25kA3diVEdYUXCEyBqwSCwKt+dYDcBV4StwIWggLSFA5gvu/LjBCwz\n\
    S3AjY1kIIKiUxSIGCSAKZayCSKIH3tq/lXAZIqBmCNXBiMkSdvFyQGD0TpwEmT1FPiGdAA7QvxdaX+q3\n\
    CPz5/d8AAAD//ziIc1cCEwAA\n\
    "

/-- data.go:1372. -/
def compressed1949 : String :=
  "\n\
    H4sIAAAJbogA/5yYz4ocRwzGX8X0NdOgP6WqUr9BTjmkbyGHYT0Bw+6MMzNLDsbvnq86ZgPdLdMU9MFg\n\
    kEb10/dJ2m/D4/3l5fJ4DNPz/n45DZf7/XYfpuv76+tpuF8eX2/Xx2WY/vg2PL+8XR7P89vXYRpzFpZc\n\
    Sz4Nn8/Py4z/+vX334ZpYE8+Eo9UZubJZKL0C9FENJyGl9tnROLTcD2/4R/DX1/uj+env9/P9+flPnw/\n\
    rVNwqmZeoxScZkF8BJdVCvk/Bcr49Ha7XXfCk5MzSxReeOY0UcW3Cq8f4V/PPy2AxJw0LEB8JplS+1YZ\n\
    6CPD9fJP8PvNDe9Dth9dRspz+/FpMuslYNXVaw0KkJF1Jm9PpF0ErGo2jQDLKDQjatJJ1uGPErCCHq0e\n\
    dCkylFkID7Tt0kMEslcl9/3oOlJdfj/j6yaQ8T5ZggK0aYBBQCZbF3CMgFVObiUK3zSgEzcIvQSMuUEO\n\
    M/jMNsEqaP1GhwikpMol0EBqGmgapkmgAe4joDWTckAgLRqwxSbSKsUxAipWXMIKmgbSJGVRMXcREDOS\n\
    uACpi4h1W8AhAgx5hRZh+JpJaxsF3QRYRdUpSsHSmtQIfdpFgDICxRWwN48QXUyui0Byd/HIqW1xIZhc\n\
    2jI+QiC5ZvcaaDgD8dJBeTLtJZBgolYoRSmYGuSEAnIPgVRZStFgEiN8bYDRQ20S9xEoKcErghbKo+S2\n\
    rbRhvG6hQwRyTQU+tx+9wOZ+jEnybgJZYHUS2GhpBBAfo4a5i4Bh0SLSMDw8ojSP4NJLIEEA5kELlVGs\n\
    qUwhg3ULHSKAt0mpBB1UsWwtFoEXWnfQcQJQmXlUQG3DPijgGAGBR2i0qdSRy7yMx61LHyYgqCBr4EJ1\n\
    lMUnzLez8hABLp6ZQgJK7Xm44usmwKxVI6PzHycHnojXRneMAKW2zAUq9pGtbSpKWxUfJYBVDnOMAxH7\n\
    KMsgE8bXQUCxRdRQw75cG9i0fLK1hg8TUEwBhNtPwdQIwCMsbW3iEAEtOCi17vcQwoNAW7UwyXrngBZx\n\
    PNK+ypAB+y4GGYYx9+xCmgu1cRxGxxzDEEAJ/QQyEVnab1LmZd3itrCb99wDinW05ro/JxEeyy40kOoy\n\
    J7vuAcWk1BLcfMjQ9t2yqKznJtbE7WANfz82LW6hEbf3IlOFVdfg5GBpBNpBY4uNdhAQiIAs6ND/Tm4c\n\
    lL69WA8TEMHGG8zKlsFbl1rZ/t3jEAG2TKnsexwvFzcErLK990ICf37/NwAA//+hjtq5pRIAAA==\n\
    "

/-- data.go:1396. -/
def compressed1950 : String :=
  "\n\
    H4sIAAAJbogA/6SYzYobVxCFX8X0Nmqo3/v3Blllkd6FLMRYAcOM5EgasjB+95zbAQdaqtBzA7MwGKr6\n\
    1len6pS+Tbf3l5fT7Ta1+/X9dJhO1+vlOrXz++vrYbqebl8v59tpar99m+5f3k63+/Ht69TmpFSSJeHD\n\
    9Pl4Py34r59//WVqE1enmXgmWyg3q03rT0SNaDpML5fPiCSH6Xx8wz+mP5Dj09vlcp6+Hx7CixOlHIVn\n\
    XpiaSmPdhNcf4V+Pt/unP9+P1/vp+phBanJTLmGGslBpxE1kk4F+ZDif/gq+X0rNLhaWR9JChto03paH\n\
    /y3Pl+t/PqAopar2PIXgbxHUBxDSCAHJmd2rhOHrwqWpNimjBDJVZw5qJDOn/gA3dNEIgaRVkSKKLr4A\n\
    rqNCNEzAs+MNQYm0a6A3qTfalmgfAedChWsUHhog6T1kPErAHEKrgcq0a4C9CTfbqmwXAS3ChT2KDg0I\n\
    guL7fZiAChuGxfMUtmqA1im0hbyPgCSTUAO2aqAX539ogGtSoYCxzZwXFEhSUzDmDxNgPIAkGBHWNYDv\n\
    Rwdp2kTfTwBDupjp8xTeCVDClMMg2qTYR4CoFvKgPghfFtG+B2Rbn70EuGotGNdRhk4Ac8IbjxDgkhFI\n\
    Aw34LNZnnORVA2MEIDEs4pSiFIpVqc0w6GyEAGc3t2gTp5nywtKHnOoogVS0FAlaKM2MLk19Uvu2hXYR\n\
    QIESeaCBNIuuDQoIwxpgT2weNSlS1D6FPD826T4CVosVCgDnToC0uT4C3k3ApGCTBV4odwKoEQyLywgB\n\
    TYk4IpBnkT6FnFajMkhAKVeiYA/kToCg4NSMhgjAyeUSeYkCla2AfV0zYwQ4a4YjjTKwLt3J5cbbObGL\n\
    ALNmmN0oulBXmAJxHSZAmHIWtRBS5G4lsIkfWmgXAWwBy16CF9TValnXgG5fsJcA1b4JNHhAnVm6Y++T\n\
    ekQDuJYYZjT8fjgt2Cx4XR8mAAUUcA5aqK4nx2rmaNtC+wjkfhGk5ypmWg++0gn4VsW7CaTkQvZ8jCJD\n\
    v/ms7/ohL0RgQFaeb5kevawjAifNdsvsJ+DGSVP4AFnHRBfx1rDvI2A4NkoOXoCTW7tTwUlAedCNkjFT\n\
    qc9bqGeo3W2Jry304XuA1BWL4PkeQ3TcexgRWDRio/cACbyoBGYFKWC3kIL/MSsDBHBtlBrcS7ye3Jij\n\
    vUSjv0pgT6ZKGjBer+5+D+Bvy3gXAao51RpG53VEONbkNvp+AiSp5uB3IaSQ9SYW2/m70O/f/w4AAP//\n\
    Czvxx6ESAAA=\n\
    "

/-- data.go:1421. -/
def compressed1951 : String :=
  "\n\
    H4sIAAAJbogA/6SYz4ocNxDGX8X0NTNQf1WS3iCnHNK3kMNiT8Cwf5yZWXIwfvd86hgHeltGlqEPCwtV\n\
    kn5V31c1n5fb6/v3l9ttqffr6+W0XK7Xl+tSn18fH0/L9XL79PJ8uyz1j8/L/ePT5XZ/ePq01LOX4iXE\n\
    02n58HC/rPjXr7//ttSFi/OZ2reSV5Yq9gtRJVpOy/uXD4ikp+X54Ql/LI8Pt/u7v18frvfLdflyepOB\n\
    xHKUboZYhVoG4l0G+pbh+fLPu6eXl+eD6NnIybrnZ18RVKTq/vz8LfpfH6/fvUCkEjmkl0J0JauW8e1S\n\
    yP8pgKF3gyB35+4NlFYGAWSYJpAsgrhzATlTWimqpyr7CwwR8CxuWXvRWRtfxxVimoCzKlvupRBehdsT\n\
    sUwRMBcuqUMA4fMqiqhva2iYgBb0ANlxBv3aA66V0wwBFUMBdfhq6wGOajj/nu84AfHIVqiXAj3AuABX\n\
    pykCXIok79SQth6ACqlX29fQMAHWlCP5cQZrPcAbAfcZApSChDoE7My2QuDQYT9BgEhBuSOjtvUAVI6r\n\
    QEb5hwnkYklK/wboAUZ5Zny78KMEcs5MHB3GvqkQLhCVYpdhhEALbrnnY94IEJ7/Px/jKQI5DFWaOyrk\n\
    jQBSmG8qNEEgITi6rBs+NpHD++zDDxNI4igiPs6QgPmrTniZIdBcTKLTYenMsnKpDp/3aQJWUiHrqBBS\n\
    lFakmhB8ioBpTiHd95HNJxuE/fsME1CcXzWOM0QjQJgjAEFnCChRMe50WDQCUNHm8/sOGycgpkV7MooU\n\
    eRvmovIe8hgBzurJOioUZ/GthspPqBCzMt7pOEOG3Tev11xlX0JDBKhNWt6NztQKtOn0PvowgcA8nWA3\n\
    3RSxElwsw8tmCESRsEgdFcpngUbAYzBLzKpQQOQsegRK2zjwRjZJIKI4iXRsEtFzqyBOlfc2OU4g0ADw\n\
    gl6KNm5pMzKdcuLAKGF4oV74tm5s+wDvAQ8TSCScO0bGtO18sk3se8ZDBNxEy3ei53UL+jb6OAHLnLgc\n\
    ywRStKWvjaKV9jIxRsBYoETHPoDwsmkEdLT55NQ0GmqhQseMkUE3nWj7gE5MoyEZK0E67jDmbdJqh99s\n\
    cm4aDRHodDleaJACSx+WVuwDtl9oxgiwo4vt2GYQvg27iAod3U/rwwQIQpekU0LIUNrvBnijNxP7EAFS\n\
    19LxMcbGDYlITUV9eh9IBfuMeqeEtrWbcHraRokfJ5ByiWZlvfAgAAmCT/IsgZQ1YxQ6nth527rhNKZv\n\
    f/c4IvDnl38DAAD//72fNWICEwAA\n\
    "

/-- data.go:1446. -/
def compressed1952 : String :=
  "\n\
    H4sIAAAJbogA/6SYy4obVxCGX8X0Nmqo27m+QVZZpHchCzHugGFGciQNWRi/e/7TmAm0usLJCfTCYKh/\n\
    6nx1+Uvfpvv7y8t6v0/1cXtfT9N6u11vU728v76eptt6/3q93Nep/vZtenx5W++P89vXqc4hpkyao52m\n\
    z+fHuuC/fv71l6lOXILMxDPZQlZNKsefiCrRdJperp8RiU/T5fyGf0x/fLndH5/+fD/fHutt+n56kmDm\n\
    nFwJliYRQpW9hPwjgTQ+vV2vl4Pw0TgKFy+80EKxUqnGu/D6Ef71/K8JhKyFzU1A4iJSJVXdJ0AfCpf1\n\
    L+/vD2LKQsfR27cIgnIVGiZgQUPO7EkwL4gsuWoZIoACSkWiGz4vnFsGbKMEVApySJ6ChAWAOVXTEQIS\n\
    k6bkPI/iW1gRutr+efoJcIlRsnoSIIAn4oAchgiwooTUzYDLQgK6VfYZdBOgZAiWPQUQQJWyVZURAkSl\n\
    mDoVZK0HKOP5q+wrqJtAKEYp5+BJMDUJTCEOIwTQXiRqfvjUKpQwI/bhewmELAQBZ07YLNYSELQB5gT/\n\
    VwIhYQwVcgo0bAQwpPNWoDxGIGbUqTmDGhJlEW5NrLyT6CMQJcXsTaEwc1zQX+gBtV34bgKY1RbN6YEw\n\
    i7YeaARkhAD6Kwg5FRRm5bZlLG4VNEjAVLSQk0CcKW+rMj8n0EdAUyDJDoE4szXAbc0ME1Amxrr0FERa\n\
    l1moYV+lXQTwOMbk7Pk4Ky0YcMzbnh8kwKlwYDmWSPjaqlE4rjxEgIVz8AikRqC5Of0fBCiYBHXeKG0E\n\
    CB1caf9GPQSsZJMizp5PjQD2WMCU0FECBqOCOeoQyOi01sRGmHUjBAxWKOXiEMjN7KKG0AMySsBSSaVE\n\
    Z4zm5nc5wiw+j9EuAkmJ3ApC9NwKlA4qqJ9ATJJEnEFXfpwcXJ4HXR+BiAlRsgO4bGYXf358BtxNIODi\n\
    SOS8UdncFgDz8xt1EbAUfa9btmuDtw4b7wHjXNAIhxJMPwwvtiWN9YDCrKhz8CE8rFYrT/jp/YzoJiAZ\n\
    EsVXyIsgPD8rdBEQWOmkxwWK6CCAAsUney/XT4CjwUo4CeDs5pZAu2mGbmKjkgmrxg1fmhdqF83oTWwk\n\
    pZAz56AAv8vS7DTtHXsPAcV8K+x4IUSH121ruP1qMEoAPgh2147bjNtd3xJoe2B/UnYR0IwcYnIykI2A\n\
    Vhg6Gr0HcLEaTsrjewAK7eJAeHz73w26CCSOCrvrRYfXxYQO8vyjjUvg9+9/BwAA//8XbXMepRIAAA==\n\
    "

/-- data.go:1470. -/
def compressed1953 : String :=
  "\n\
    H4sIAAAJbogA/6SYzYobVxCFX8X0Nmqo3/v3Blllkd6FLIaxAoYZyZE0ZGH87jm3JzjQUpn2NWhAMHBK\n\
    fb+qU+f2l+n69vx8vF6ndru8HQ/T8XI5X6Z2ent5OUyX4/Xz+XQ9Tu2PL9Pt0+vxent6/Ty12dULJxE7\n\
    TB+fbscF//r199+mNnF1nYlnKgtTo9o0/UL4QtNhej5/hJIeptPTK75ML0/X24e/354ut+Nl+nq4q8A1\n\
    U01RBfaFrVFpYpsK9K3C6fjPh9fz+fRA3fDrvVCkLrKQN9NmtFHnb+p/fbp89wG0ulQLj0jqItC3xtsj\n\
    kv9LAEP0BCrmuQTyMlNeCNp0L7+bgCTnbMEZycy2EDdmaI8QEMqacsBXZqGFczO/57ufAGsulMIHEDRp\n\
    aV7vH2AfAUql5MyP5XWdAbRnxhiMEiBmMs5RhT4DOP7URAcISHVOTDVS7zNQOl/lUQJSCuWiAQGdFZCl\n\
    eUKfjhCQwuaSAgL23wx4ZzxIQLJnYfeoAusi1KfMfIRAAgKOJsxm4T5h9j5hPEYgiaXkQQtZdyEYncja\n\
    QvzjBDyxUi2P5X2mtLA2wUPIRn43ASc1eGlUAQQwAASr4E2FXQRMixBLpN5dqDZ8rAwTUFDW75RYbQJ9\n\
    eldiHwGlUrzqY/kExl1eU7M8SkCsqnEwA2lmXtj7EIuPEODCklOsXnsHYbZ0q76fADP+ohZKs6w2oRDf\n\
    ttA+AuQpVQo2cYbP9UXfjSgNEuBakVcin8idAGHKapOtT+whwBUWkS0gkDuBnoXyTxDgkhg1ghnIs7zb\n\
    hCDPjRDgQibIdI/lC3b9moXgEcMEslbWKEqgQu1ppe+BIQIpFUeUiNQ5L7BQLGPbmvR+AokKSWTUZRbr\n\
    JR4Z9T4C7lSrh+ej3JNK76Ht+ewmYAWBJYoStaetfkC5+RABY2WiII3WmVO/z1htbsME1DHEGoxZnUX7\n\
    mDF22XbM9hGQmsxKYHJ1vW4gajE+owREksKtH1ZgWgn0AcC6HMhC8OgiHngc1JF1e3fa6nFjaRRhmqr5\n\
    41WJEgi8PY36uip/PI0iqpOW4MLX5d83WR2/keE6DK30eIiZ17SFAYARyQABwg4ji/jyet/Lawdt+e4m\n\
    QAVhFHElKoG4hVUJp/BtnN5FAHcN3LhTAJh71Oo3Gm+6BbybQMaccbAHWFYC1F3orkt3EUgIuzk6HulZ\n\
    F/6gmLDt8ewn4Pj5Ehgdv1+7ub/44O21ex8BJOrkNTyfTmB9r6Lb84kI/Pn13wAAAP//INiOV6QSAAA=\n\
    "

/-- data.go:1494. -/
def compressed1954 : String :=
  "\n\
    H4sIAAAJbogA/5yYz2pkNxPFX2W4268b6o9KUukNvlUWubuQhfF0YMB2T7rbZDHMu+foTpjA7a4gC67B\n\
    YDgl6Vd1qsrfluv78/Ppel3a7fJ+Oiyny+V8Wdrb+8vLYbmcrl/Pb9fT0n77tty+vJ6ut6fXr0s7GiXL\n\
    xVI+LJ+fbqcVf/r/r78sbWG3dCQ+kq0kTahZ+h9RI1oOy/P5M5TosLw9veKX5e3016fX8/lt+X7Yq6tn\n\
    r1kjdZYVoiKNy06df6r/8eVyvX368/3pcjtdHoVQK0ThBdj7BTQ33V9A/g2BR4puIDlLlhrJS1lJm3hT\n\
    2cnrT/mXp/+8gBArZXscQY6kK1sza2ozBDipEUmkzrRS7ee3Ok2AirNmD0OUlR2EG/MUAaKaXDmSF1tF\n\
    m3IjnyOQ3FPONQeMdasBbYws3TMeIJC8VrdsFKkzr3gbQ47SJAGEEFFKcQhfcfqEbx9ihEDyYuyUwvdB\n\
    DXBuPUknayDBJaQiVR9HSFsNwIUyvhkCWfGTSqTea8AaPtNpAiBs1YIkRYi6Um7JtyTljxPA+UuOfDQd\n\
    JfcbWG1WdvLDBJK6lhz4hKHQVuGGQus+wR8moMWzleD8UPd/LIL25x8noORSJLBR6y6EPpNQaTZFQJIS\n\
    1yCHrLsQp2bUWGcJcM1kGhRxRrPZsjRtPvFxAixahILzQ72u3A9/f/5xAjg9iiAMwXmFPsrA9iGGCFR3\n\
    UqHwfURXjCkpbyY3RaC6Sio1yNJ8VOoXgAvdVdkIgVpzgckFHlc6gT6ogECeJVCLV9MaPFHpBKCsmLj2\n\
    TzRGoGhlk1AeBKCKMpgnkPH8VgIXQgTvvR6YZcaFamZCIQcmXYG4u5DhCnuTHidgKXFJQQrVI6feyFDE\n\
    vE+hMQII4OJBDtWjbB6BG6R9Dg0TSKKppIAAIsAneNsHpggoLKJaYBHeJy3epmmadqEqTlJyGIJ/NDJC\n\
    pU0REFVCnYXy26jVGfMsAUardw8v0DcO7p3m7o2GCJDn6sEsx7TNutYt4m6WGydAmoH5cQ0gRF/6rKHb\n\
    pP3SN0SgONaNIo8Xvi5fex/QbkST0yj0GZvrY59DBExbGFXQaWw/To8QKDVhYZLHGcTcZ91t3cYVZgmU\n\
    UiWzhyEw8HKfI7YknSBQRJ2DDO3yyFDvnUz28/QwASRQ0aCIEaFPW31h2or44wRgQZby4z7A28aN8/eN\n\
    e79RjhMwgRGVIIV+rN2AjJ14aiMrKRelwIV4W7n7f23kHvAwAcXWJBT4xLZ1U9mmlZGd+PfvfwcAAP//\n\
    sElskaASAAA=\n\
    "

/-- data.go:1519. -/
def compressed1955 : String :=
  "\n\
    H4sIAAAJbogA/5yYy4ocVwyGX8XUNl2g67m9QVZZpHYhi2bcAcNMt9PdQxbG7x6pGByoKoXjA40xDKO/\n\
    dT5JvzTfpsf7y8vl8Zja8/5+OU2X+/12n9r1/fX1NN0vj6+36+MytT++Tc8vb5fH8/z2dWqzZGbECnia\n\
    Pp+fl8V+9Ovvv01twqo6A9pnIWhUGtZfABrAdJpebp8tkv3K9fxm/5n++nJ/PD/9/X6+Py/36ftpK0GZ\n\
    pSqFEmVBaiINykaC/pOwND693W7Xo/BQtUKKwqMuRA2lqWzC84/wr+f/TQC5CpfwjUgWwAap6faN4IfC\n\
    9fJP9P0hZ6WiUXTGBbTZB3WYAGChpOVYgmbInoBQIxohkKoiQw0I0IyyYG1iCqMEUimsUsIEiBbUpvZG\n\
    2wR6CKRCQpz5ODp7D3iBWhvkUQIpJ0pZayhRPAGTEBwikCoTSpgBpgVT42yfUQKJShaASMF7gJtwIxgh\n\
    oBlqiaYQzww+haDuO6yfgIIBEDmWkLUH7ImkYRoiIJyAogoVn0JoMwKbbiu0mwBnyTVW8B6QdQqZAv40\n\
    AcZs/8TRq08hG6Syjd5PgBRUS+AD9kkLcUNuXDYSfQTQCqhgjsIbASCvUOBN+G4CaD0GkZHpTOaVBriu\n\
    RvbzBCCxMAdT1KKvI8LjyigBrVUoQ5BAMpVVwsx+iIBW0lRzGB55cbp5/z69BLT4rM7BG6WZwKvUhvXu\n\
    jXoIaIFiLhlHzx8VxOMEsu0RJnIskZ2AdbCtW6pDBFImqhr0QJ6RvELZbGa0BzShAmMwJ0yhulfaGN3N\n\
    iS4CqlSTBD6QZ1p9zDrMt9FBAlLIKAROXMxt3GrYZ/UQAbFAKXKyMiO6TzLvM+gmwAlFIwKmkD0BLQ2G\n\
    CNj720kQVFCZyQrUbBgbbSuonwBRVnObY4lq+5xLmElSGiKAKQPXYFOx8PUjPMIoAYSMKTKy6tsWZJuh\n\
    eyPrIuBfHiAo0LpuWtLYIYwSEBvSpeTjEkL4OPosgV0TdxGQimLb4nENefiybiq61tDQLiTFGkCDbdQU\n\
    fNuq3sQyso1KLuijNIpO7IuKtbFuv38/gYzFsggl/OhL69G3legjkBKUSsdOhriuWrap5PGb2MxeObrI\n\
    TMFvPjrcd7sIqF1k1sZRdN9182qTW779BGxlBwzuAZeoq9XYJB26B0QgSU3B+5ATsD3LdqHdxdpNgDlX\n\
    jBivV7dNIThg3EXAnr+UwGVwvbhtitoUku337yfgf7ixJEKJup6Ush8ThwT+/P5vAAAA//8CTRAQBBMA\n\
    AA==\n\
    "

/-- data.go:1544. -/
def compressed1956 : String :=
  "\n\
    H4sIAAAJbogA/6SYuaocVxCGX0V06mmo9Wxv4MiBOzMOhqs2CO6dkWfBgdC7u6oDGXq6zPExSgQX/upT\n\
    Xy1/zbfp/nx7W+/3qT1uz/U0rbfb9Ta1y/P9/TTd1vvX6+W+Tu23b9Pjy8d6f5w/vk5tFkGFkpKeps/n\n\
    x7rYn37+9ZepTVg1zYAzyELUhBrqTwANYDpNb9fPpsSn6XL+sP9M7+f749Ofz/Ptsd6m76d9BCiAFSCK\n\
    gLwAN8AmsIsAPyJc1r8+fVyvlyN1JGWUSJ3Av19Lg7RTxx/qf3y5/dsDuKoClzhEXlDs6xvuQ9A/IQxD\n\
    8AIuVYAkHcvTDLxgalAbyiABLkSVco4iIC6EjUsTHiDAWQuxBukx9brYxxM0GSeQARSRoxCUFq8fbJSH\n\
    CCT7pxrkh70HEJtKg31+ugloSgmpRBGQFuTGuSmNEFCQwgVD9bpgbh6gDhMQ0YISPsAImD7C6wP6CHAu\n\
    SlCP5cV7ALyFG+MoAbb6SRjkSLwHgCxBTfY56iJA9vUMQQ+Yel6IG5XXEdFPwGaodVowRmUm9QfYFCIb\n\
    o/jfCSAhFgoI6EaAm6aGuJPvJgCaQSpFERB8jII2KLsIPQSo1spWQ6F6Xqx8UJvs1bsJUGUlkWAK6Uzi\n\
    g5q0aR4hQCVJVg4I+KZZbIhaimiUABVgSRhHKL4ryXpgH6GLQJYkFA3pNKMuSF5BtE9PP4GUjUEEOc1k\n\
    RZo9RS8l1EcgQWXJwQuyE7BNZl4I9i/oJuBOgjEYo9kJWAPYJgYaIWDdZRkKplCeUXzPS9o28SABIbZW\n\
    C+xinom8hNhGnA4RMB9RioQvYPAeYIuwf0E3AaqZKQcEilWRV6k1MQ0RIFtkSEEFlc3rWgWJrfphApgy\n\
    lcislJlwsxJ1MysDBBDQpGL56hWK8irfTQDMtGsKNnHd3Fa1GdqwDhDAWjCVGqzJ6k7LRN3O7ddkNwGs\n\
    iO4ZoxB2coC44X2B3EUAixSwfRzK561C/SQYJIDZzrGIMYITMMZ0wLiLQLYlmQInYermtLD4FNW9l+sn\n\
    kNScUDqG7CE2w2tN/HJS9hHQqtYGx4BN3s2ujWje9sCQG0VliwABAbu6ya2EmKMeuchQ7KCXGqq703Kb\n\
    1Wiv3k9AwNo4uIk9RHG7JTp4EyNbl2lw0Zi8m108vGi6CdgOqHb3HUcgJ2AJskaT/dXdRYCgKGNAgDYC\n\
    NoLw/xBAUf9tJQyRfYz6yTR0kSGUglmPF73Ju9kFP/ik93eh37//HQAA//9vX3LQpBIAAA==\n\
    "

/-- data.go:1568. -/
def compressed1957 : String :=
  "\n\
    H4sIAAAJbogA/6SYy4ojRxOFX2Wo7a+CuObtDf6VF66d8aLpkWGguzWW1HgxzLv7ZNmMoVRhqtOgRUPD\n\
    CWV+GSdO6Nt0e39+Pt9uU7tf38+n6Xy9Xq5Te3t/eTlN1/Pt6+Xtdp7aL9+m+5fX8+3+9Pp1arMxCVf2\n\
    epo+P93PC/71/59/mtrE1fNMjM9C0tga8f+IGtF0mp4vn6FEp+nt6RV/TG/nPz69Xi5v0/fTRp2qM2nN\n\
    oXpdKDdKzXSjzj/Uf/tyvd0//f7+dL2frzslSqWinKISnBboCzexTQn5pwQuKTpBUTXJFsmLLNC20ixt\n\
    5PWH/MvTvx4gJzOrJaqg1CuIN5IRAqlaEpJ9dZkpL6INHy7DBJImz8pRCbaFU9PcrA4R8IwbSuEJhBfG\n\
    Cy3Ntyc4TMApsyjtV9DeAzgAijiNEDCtXijoAe09wHhBtfl4D2gRpxI8IV17QHoP+PYJHSOgwuSqkbzo\n\
    Qnie1iSPEsDXN+Kgy3RWuFBtXB+77BABLl7w2Ve3tQeoKW5oez3HCbAUEwuuyNYe0NbPgCvijxOgBAqx\n\
    PFxo/eLNt/IHCWit1bxy0APWXajL29oD/EECUFflor6v7p0AwYUqbG6jfpSA1pKN2YMD+MzajU6t8fYA\n\
    RwhAHk6aOehiX12o9B7ok2yMQO5FKGCMCrX7nNZHxocIpELVojmQUGCh0h9od9FBAokrRmUwB9LM0o0O\n\
    RkR1iIA7cUggzUJdXv4LAStoAQ8PILlPYvTAwwEOETCBB3HAtzfZ3xZhW77HCWgy8Ry0WZ6Zew84PbbZ\n\
    MQJStZToheZOAF3MOy/0MAFRSZKDMJc7AUwaQdqyEQKc3cM5UBAmlv7lvZkME2AqbhYQKDPjkdo6B8YI\n\
    9Elfox6AfFk49yxEoz1Qaq4uFN6R+OpCwLy9oyMEShV2qwHfum4b3rSHiVECGPSIchJEibquHN4ceS6N\n\
    ECgZY4wk8NE68/pCYXIPPnqYQJbEKQeDrPa0hbTS8+7IJC4pJZEUqmPOQxpplLbqxwl49VTrfgkmvKJ1\n\
    ZcIw3sbpYwRcEFWCNAp5hF34qI2nUS2WBVvxPmNU6Hm3jxkY0cfTKNSxFXuwcUO9EyAMAeT1wTSq2Fmx\n\
    FMv+IGPucQsuhMDrIxsZLCg7Gnm/xSCPsNvn5E5aP0xAOFuRfRdCBflrI6s4wwgBzPisErwg7kmLEobY\n\
    OscGCeD60QcB5HXtpm5BzbaQjxGAAzk6OZIHAbiQwUq3P3ocJZB7mkONqAII0LoTP/yscoRALlUl5Csr\n\
    Aawa8riwhgR+/f5nAAAA//8V3lFgAxMAAA==\n\
    "

/-- data.go:1593. -/
def compressed1958 : String :=
  "\n\
    H4sIAAAJbogA/5yYz4ocRwzGX8X01TMgqaT69wY55ZC+hRyWdQcMuzPOzCw5GL97vmobB2pGprYOCw0L\n\
    UlX9JH2f5utyfXt+3q7Xpd4ub9th2S6X82Wpp7eXl8Ny2a5fzqfrttQ/vy63z6/b9fb0+mWpx5CypEAS\n\
    Dsunp9u24l+//fH7Uhculo/ER7JVqFKpIX0kfNByWJ7PnxBJDsvp6RUfy9/I8eH1fD4t3w59+BQLSWEv\n\
    PMvKWomrli58+Bn+5el6+/DP29Pltl0eZSCLksXNUFaRSrmG3GWgnxlO27/e+WMwEnajS15JKscqfXT+\n\
    /3k+X355AUuiKk4KOZKuOD3Fyn2KMQLGRoGzF55plVCDVpVZAqo5RXMvwHllq6EAwgwBEEYRudEltgI1\n\
    VNA8ATwPa6bHKULrAc4gXJWmCEgklewQCHsPEI5fwzQBLhwtmpdBaEUHG9VgMwRYhKgUNzr4cm0vxNME\n\
    KKoYOWNC9x4IVbVaPybGCBAZp+TUkP7oAbzPXRePEoglaEKruRlKu4Bg1PUXGCEQc2zB1YveekD2Ho4f\n\
    MUtnCMTMZFkdHTBwXhkXkF0H+N0EYtIi2dMBawTajEANlS78MIGYshX/AphCTcgwKvoLDBGIrNGye34Q\n\
    IJw/7gU6ScAsFvw9ThGhNqtwNZSQThFoAJScKYTwqNCE41eTWQIqIURxxmg8cmpChgxtjL6fAEKLeSoT\n\
    j6L7FNVdZSYJBApUstNmqRHAE6GPQ99mYwQkRHgh533SToBrY9y/zzABhtsiT+vTkePKcHKhUs94iAAz\n\
    kbLTYekoofUwEmjfYeMESHPMwb1AwJhImHL3FxgiYCUVTsXRyZahCT10gGySgBU2AWQvA9tKCqGHYZkg\n\
    YNmSibnRhduMU6vaRx8mYAlKRuI+kaBIMeVwgf6JxggkkWjB6eKCRm5eAjopfRcPE8CotlycKi1H3oWs\n\
    bRwzOmDNyqmnA2V3Wtq8UJjWATM4rqAOZKRITewx6LiHPEZAoZQc08PwTI1Am0LwimHSC5kSpJgeE0AG\n\
    +N3vjv1upRwigKdJxfG6LXrZN8pUufe64wQkE1N6rMRIAQIYdCq7Er/fjZowtg1njjI3s4sb/JijcwQY\n\
    NVTSYyFDBubWxNCB5hffT4BKyNnp4RY9tx6Azs/vxNi5JZs4RcrNbkHsIQXWF+kQAS2wWsFxKvx95d6n\n\
    0N3CN0pAcykwQ4+bmPetG6dvS0e/M40Q0Ay3KOo8jzSn1ULLfQ8PE1Bs9EWTU6T72g0jZFZl6Hehv779\n\
    FwAA//89a0KCoRIAAA==\n\
    "

/-- data.go:1618. -/
def compressed1959 : String :=
  "\n\
    H4sIAAAJbogA/5yYy6ocRwyGX8X0NtOgS6lub5BVFpldyOJgT8BwLs7MHLIwfvf8ahMHelqhUtCLAwek\n\
    qvqk/5fm63J7//jxcrst/X59v5yWy/X6dl366/vz82m5Xm5f3l5vl6X/9nW5f3653O5PL1+WvmoqJK1I\n\
    PS2fnu6XM/7186+/LH3hZm0lXknOTN24s/xE1ImW0/Lx7RMi6Wl5fXrBH8vz0+3+4c/3p+v9cl2+nfYZ\n\
    ckpaG4UZ2pmsq3WmXQb6keH18teHl7e314PoVqoQWxSd81m4S+5iu+j8I/ofn6//eQGjVsxSlELSmVvX\n\
    1CnvUsi/KYAhukFKLWlqUXhlD0+lK88S0Fqr5eCNZKXiGUS77d9oiIByK1k4is7m0f2F2jQBMdyhhBcQ\n\
    PVPF6R8hjxHglikXOQ6v3gMkW/g6S4BVinAOM7Sty7RTmiFAWchKUEG6Mvh6e3XZV9AwAW2tVY4IqPeA\n\
    ILL2NEVAGxBbpEK69QB7D9isCqF8Ms4fvFFaqZ5xeqWe9m80QkArWabo/MlVyBtYHs8/TqAka1YCGU1b\n\
    D+TOaGLIKP9/AtklQgPACN9cR7VtLcZTBLK3WQq6zFyFxG2ma91lGCJgRkY16DBzFUJ0qISmXfRxAqlJ\n\
    lqgHbBVYpf6jQhMEEspILdBRcwIEHYXNtFkCmtFpWY8zZHxnPD9UyMoMAWk5i5UoOicvUBEYzTQB0WYQ\n\
    iiiFkKuQwS3nCDBmiRT5AMKjQtUrlPYVOkyAqRSLqrQ4AagQFIL3VTpEgJLm3MLorF6giJume0BazZJS\n\
    QKA4AUoudDpFQJpwLRT0QHECcLJNiCYJSDXJlYI3qpA6z6A6R0BKY7EcVFBdGT5W3YkfNG6cQEEXpGjg\n\
    RYrqkFPbnHiCQM4YRyno4rpKdhVCkfK+i4cJWKukFDix2/02bSUsHTMEDLsGR3z98x6GDzzwHSeQCrxY\n\
    gyJtPm4hMlamB6EeI4DXL5UDo2+rmGuEC9He6IcJwGoyhonDDEzbzrfNQg8yOkRAasbCdDwLefTmEoHz\n\
    p+lZSEQYInRcQkiBcQtN7D6wH+bGCLBR0fgG34fdoxsME6CKnS8YJZAB8y6MMtHjQjNEgPBCaOLj6Lzt\n\
    e6ggQNhv3MMEMMphLdbjnRgpMG5BJhLuMLUTM56HS7BTIrx8d7L0uFOOEmCMWjCyMIOSr5TJq2iCAJdS\n\
    WNqxivK2cUPjsNIknSZQqBBWmiiFE0ibD+xTjBHIWhOcMgrv6wZqqM5vZGyVWmRknqFtv3u0x5XyiMDv\n\
    3/4OAAD//20p/M0CEwAA\n\
    "

/-- data.go:1643. -/
def compressed1960 : String :=
  "\n\
    H4sIAAAJbogA/5yYQYscNxCF/4rpa6ahqlRSSfoHOeWQvoUclvUEDLs7zswsORj/97zqBBt6uozcN4Ph\n\
    vdZ+qnpP82W6vT8/n2+3qd+v7+fTdL5eL9epv72/vJym6/n2+fJ2O0/9jy/T/dPr+XZ/ev089TlxFsrF\n\
    2mn6+HQ/L/ivX3//beoTt0Iz8Ux54dqzdOJfiDrRdJqeLx+hxKfp7ekV/5j++nS93T/8/f50vZ+v09fT\n\
    1kK1lSwaWXBaJPXMncvGQr5b4BgfXi+Xtx35VJOx1kheeOEMVRxiI5++yb88/fAASUqqJKFDXajg63uq\n\
    Gwf65vB2/if6finSTGxfXWbShbWL9pQOE+AmZpwjC5aFzS00HyLA0lrT4O8D+eaA1R7/PsMECIS1cuQg\n\
    xW+p5M7tCAEibUbBDUrrDHAnfbxBwwSoJQyZpcgCM0A4gHWyIwSoWmk5l0heyG+oUlc9SIAqF5ZMoYMt\n\
    BMCtMx0gQKYmwLCvrj4DUCcf48MESuVGFsyAzsyLcJe6zgD/PIEiyskCApCvC2PJ4RC6kR8mkAtp1eAK\n\
    6Sx5EcHXw2TjMERAG/mW2FfPKwEPgc5poz5OQAVLNIKcnYBf0tSFDhFACpClYAtB3hZBCGCV1qMEcISS\n\
    crAnshMAYwyxyBECklSkBuoFa86XNHTzVn2cAJtWycEMwKJ51ICzHJsBZks12hFl5rJghBNu6BbwMAFM\n\
    QLEcMC6z4JbqSmDLeIAAQsyQYhYUFXMCUFesiHKQACyEaysBZFhUv6TJOm8hjxCQVotUkSAnbWbcUIyY\n\
    9NyOEUBTaYKoCfaEzZIWbj0habZ7YoiASS41yjFDVPuEIWUetug4gVIqzhAQqHBZCGWFjxIo5GcIRqzO\n\
    rL7kHPB2xIYJ5FQqOkvkINgT1DHHD1M2RABBbFh0oXrzC4qgeVAfJ6CcWWoQZG2tW9LR59I2yMYIpEzF\n\
    LNgRzcuueMYczgHB7WHRFkxZ8xcHSgoqo26nbIiAICPTD9SrJ7EHzVZ9nAAX7yv7Q8zeJrxK4NWUt0+O\n\
    MQJou5Js/w5B/v/nhj12xWECJJizoLHDAX2X17aSto19hAAWtHFL+wRc/b+uqyuBQ20UFpQ56f6iYzy7\n\
    kz85srscIVBrykk5lOd1j2o7/B6Qivek1CAH3KGub7685sDPEzB0adL9JIa6N63sOZa2PxmMEyioEpmD\n\
    A4gToPXZ/XCAMQLZrGgs72W3eZI9yA8TyIwq1Pb3nDtUzwFF3B/4VUKqQjq38PtBAFsIOU/Dv0r8+fXf\n\
    AAAA//+sRd5OpRIAAA==\n\
    "

/-- data.go:1668. -/
def compressed1961 : String :=
  "\n\
    H4sIAAAJbogA/5yYy4pbRxCGX8WcrSWoa9/eIKsscnYhi2GsgGFGciQNWRi/e/6WjQNHKtPTxguDh79O\n\
    9Vd/Xebrcnl7fj5cLku7nt8Ou+VwPp/OSzu+vbzslvPh8uV0vByW9ufX5fr59XC5Pr1+WdpeilbWJLRb\n\
    Pj1dDyv+67c/fl/awjXxnvrfVbRRakIfiRrRslueT5+gJLvl+PSKfyx/I8aH19PpuHzb3ckLFRGJ5JlW\n\
    grw0Lxt5/Sn/8nS5fvjn7el8PZwfRJAkqh4mwGkVbkrNtwnQzwjHw7/R9wtpTuSRuujKqbE29o06//88\n\
    n8+/TIBVM9cwAeWVS7N0n8AYAUqupAEB2VPpGVhtMk2AKFepJYrAvlJpzM1kgkCulpUt/H6Rrq7WePv9\n\
    wwRyyUlLCRJQRFlBWL3xNoEhArkwU82hfPcADJBhg0kCObs6fBBGSL2EXO7faIhAqsSlBB7QvVj/fgOE\n\
    aQ/kxLWWpI9DWO9CaEEI4fkj8fsJuOdKnkJ5eIBh4Wa2kR8mYLVS0eCN7OaB1BQu802EIQKmYFxDdXhA\n\
    UEF4+636OAFNlouGT6S0coWD759ojICSS43mgO8p9y4ED/Q5MEdAzCxpUEK+Z1sZ8qnRtoSGCDBqCC8U\n\
    qYMA1PFCrNME0CWSJY5CgAB5U3igThEAgEISyCdE6DWEDHQrP0og1VLNoxJKe9buATzTXQmNEEiVSy3F\n\
    InXBmIQBGIhnCaTiuc/7MES5zQGYeAt5iEDKFX9yQCB3AmRNFcN4lkBWzLFo0uQ9o08Qptht0ryfQIK9\n\
    OIXqIID2jxfyrfo4gURGToGJESL3BBz73NQcSG5wWA66UMEwW/k2yWy2C6FFZLTRMAJznzSKLrSNMETA\n\
    CCXKgcOgXrs6nke2DhsngFUaYyDwQMEP9CLtkOc8ILCxceDi2letvkLg3Ni6eJiACGuJ9sX64+LAvstT\n\
    BNjNc6mheu7XBi4m5WkC2BX71h6FwLqFIkWb4KlJnEi9eLArMvVVC4sQWqnOesBrcrLyOIEeofZVAlXq\n\
    M3PAsYxSDuYY1EGgj0m7n2PDBLyYstYwARx9GJU4KWmKgKNDuFiYAQ4+6lMew3jyHvBMWHc1iNB9vFLt\n\
    25ZtIwwR6E0OR3ekjl0XBcpyW9bn7gH3UrgEZzdC9KMP2+iDs3uMgAtJ8ccuhnxftVLfhYhnCWARshp0\n\
    apa+76JJ/OjU7yeg1TRxQED6rivfu+g8AVURCRodfz+7qVmfNlME0Elr9FsbyOutS6NCdftLj4jAX9/+\n\
    CwAA//9YfgIiAxMAAA==\n\
    "

/-- data.go:1693. -/
def compressed1962 : String :=
  "\n\
    H4sIAAAJbogA/6SYzYojVwyFX2WobWzQ3/19g6yySO1CFqbHgYFue2K7yWKYd89RBSZQLg3FbTBNQ4Nk\n\
    3U/nSOpv0/395eV8v0/9cXs/H6bz7Xa9Tf3y/vp6mG7n+9fr5X6e+h/fpseXt/P9cXr7OvWjJG5VLdfD\n\
    9Pn0OM/406+//zb1iVuWI/GR8szSNXWVX4g60XSYXq6fEYkO0+X0hl+my/mfT2/X62X6fniKbpRqKlF0\n\
    1plSJ+miq+j8I/pfX273x6e/30+3x/m2kYJKUm1hAUIz186527oA+T8FHimqgMikaViB1Fm0a+m2rkB/\n\
    hH89/awAa6aZU1AAPmlGYKbnAvYQsFozlyJRdOaZE758tzpKwCqXpkxhijazdodAIwSsWKnNOAovxStI\n\
    1FMbJZBrUyl5O4MuGiAIoJONEMhKCBRGdw1Y19Z1HX0/gZQpZ2lRCuGZSk+5Mw8RsCa1cViBNFcxcxdU\n\
    wEMETJOZBC1k+MwCAeQutMqwi4AWa5oCDZhrANHRQa4BHiOgZMxkUQq4ECKrAcIqxT4Conh/jsMXl1hq\n\
    eKJRAgwVZw7eKDkBMBYQWL/RLgLMVVoKOigtLgQLskVhgwTIauKSwhTNbUKRJY0QwITJRhRWINl7iPKi\n\
    4iEC2qQ01LCdIcPqZjY8P4bxAAHFGNAWTZl8ZHKLkP+mzBgBxRSonAKjRoo6k4JwpzZEoKiBb6CBjFHt\n\
    c9J7aFQDmotmpNnOUJwAMiS0UBkhkMkyadBBZSFAPgeeXHQ/gaStVAtaCCmKL3Mmzy20jwAmfUstGDMF\n\
    Glw8AjLgUQKwoVQoLEAXnxDY6JAGvIAazYGKz4w9MaUPzAEVX7cskFk9cpqFfZlLa5ntIyDSuFGwjdaj\n\
    wCPYPYJ1lABnKRTN+npUmhcFQ2gjBKgJXiiI3oDYXcjSs4vuJ0BY5SQyunbkpUkhAxkiIM3PjRpooPmg\n\
    hwAUbTSqAWmUhThwobZcHItPDLmQVM2t0famxeS7ru9COMrWm9ZuAlJKwz2zLTOkwMILEWMS61pm+wgU\n\
    ITDeJoDwvmr543yAQMa6mAOf8wzVC/DDdb1O7yKAp1ELDlbm5d4rnf0sHr0HJImvQkEBvCy8skzioXvA\n\
    TxrBzzA87gFxj9A8eJH5MpSwNEYZsO9i1RJgXt98uwjApUEg+P6+UPscsIp1d5gATDQxbxs1L2c33gdG\n\
    Tet/G+wjIJQkB7uEh68OGIPe1jflbgLs+4qFBfi+K35x8LqALQJ/fv83AAD//4Cns/WgEgAA\n\
    "

/-- data.go:1717. -/
def compressed1963 : String :=
  "\n\
    H4sIAAAJbogA/5yYzYobVxCFX8X0NhLU3/19g6yySO9CFmKsgGFGciQNWRi/e061wYZWl2lf8MIwQ1Xf\n\
    +uqcqpov0/395eV8v0/9cXs/H6bz7Xa9Tf3y/vp6mG7n++fr5X6e+l9fpsent/P9cXr7PPWjCBWrYvUw\n\
    fTw9zjN+9Puff0x94pb1SHwknYk7SVf5jagTTYfp5foRkfgwXU5v+M/0z6fb/fHh3/fT7XG+TV8PTyk4\n\
    kRQJU7RZtFPtVlcp5EcKPOPD2/V6eQ7PzXKVTFF4LrNQ19SNVuH1e/jX088ewLUSV+Mog6SZtRtq1FYZ\n\
    6HuGy/m/6PursKUouiDBjNok6mkdfTcBLglPKC1MUWe2nqQTDxHIteZiAWA5cp65oPw9rQHvJpAlcaYw\n\
    g9iMFqXcdZ1hF4GUS01i29E9gX8//qU8TAAKYKspSsE0E0pU0adDBEzZMgcqRngARn0amnSUgBZqJYc1\n\
    cg1IZwhtXaNdBBTxmYLy2KIB696jKA+PERCITH6SornRpbwQ4F8nAI2lVgMXMnch0p50cSEeIoAUJhKI\n\
    2I6is3CX1pVXGXYRIFhEqSWKrjRzdoUlHSVArdZmrNsp0uJCtfsoKCMEqKFENQKcFhcytOcz4L0EqGaD\n\
    V4QPAAFKCNx1/YA9BKiSaormWHICiJ4McYcJFJWmFkDOR0KTon/oGfI+AjmX1lowyfKRzTsUGpA2SiAz\n\
    ykQ5yiDsLmRgbCMEkhURDVwU0euiMFlcdJCAlQIbClqoIMuM+HAhHtOA9ydb4NLFCWBOprK49BgBTYW4\n\
    BV1a8AteI1N00QgBaZSJgwYtTgAaxrJF4y4kIpVykKJCabNPMcyyMQ1wVt9Ho/AsPuhdBnWUAJMkiwgg\n\
    Q/N9EfsuDxGACeVCQYPWoxT/frhQWjfoXgLcWq4ZPrSdovnJ8W1hH5oDCM/YVKJVq/mq5R6hw3OAW4VP\n\
    sAaM23JxADBirxnvIMCtlFxEw/JI9kVFW5dxAoWt5EADTMvRh3spdR3RAKKkkiVvbyoevjlgwVGz3lR2\n\
    E0iNsEpsawAZQMAvMh3SAKL7yRrMeUT3XReLysac30/AMtUWiJjZF148AHMgrY/WfQSMlBLF4eu8HEt4\n\
    xNg9wE1VcTMFLcS+bfmyyIuN/uo9wE2yqQUaQHS/9/wcWyxi6CJDCgwBizTAvm5hFU3fNDBAAArDrrK9\n\
    qbD4qgWPcJe2UQJUMvbFbZ/j5er2mxiH6/qk3EWAILDC4fdj1+Xmc8DW37+bQIXOuARHPVL4yQF12fOf\n\
    DTYJ/P31/wAAAP//TzZyyQQTAAA=\n\
    "

/-- data.go:1742. -/
def compressed1964 : String :=
  "\n\
    H4sIAAAJbogA/5yYz4ojRwzGX2Xpa9ygf1Uq1RvklEP6FnIwsw4szNgb20MOy757pD5MoG2FmoZdWFhG\n\
    svXT9+mr+THd3l9eTrfb1O/X99NhOl2vl+vUz++vr4fperp9v5xvp6n/8WO6f3s73e7Ht+9Tn7G1ZkbE\n\
    h+nr8X5a/L9+/f23qU9oVWbAGeqCpRfrrL8AdIDpML1cvnol/5Hz8c3/Mb0eb/cvf78fr/fTdfp5eOiA\n\
    BkaSdUBZCLpI57rpAB8dzqd/vrxdLucn1bUUqRWy6kQLlE7mdTfV8aP6X9+u//sFqimqUdqiLcQ9/rRN\n\
    C/qvhWPIvkFlbAZJeZqhLEgxn7ItP0ygVKqV0g7IC3IHeuwwRKAAQcGSVSeI6iRdym4CIv4XW9pCY0Rs\n\
    XWgXAVauVZIN5VUDEPN52NBhAgzKUpIZcWjAy7vQHmY0RIDEZQzp53cCrjAfT9l+/nECvqau5ERmHBoA\n\
    7tK6uMzw8wQQi1lNNlRCA1C7aMe2KT9MAAqDG0XWASm2lFsvsukwQkDNXGNoaXULFwJfUNxUHyagxkCE\n\
    CWSZyZfUx+8t6h4C2oqJYjKf4h1Wk0MX8k4C6kOSSsmMyoy4EK0utJ3REAEVtFY0rd6Cr5D79G4CVQWo\n\
    YNaCVpuIU2O7CFQQRki+QXWVhclB67j9BsME/FJSheTW1xlhvZXcUfcQkKYKmn5+1AVWF4X9BMT3lDTR\n\
    QJ2phI36iHZqgAuwZpdM/dIsLgB2DZS9BMgYOWPsHWw9ZN5kO6MhAsRUSuaiOmNdk8QTFx0ngBWNSrJC\n\
    OpMsWCMuwnaFxgiA+Yha4hHN09YCHhSh49YjhgkAm2pJZuQdNG4l6hrmPk3Ak2IVyFy0zVji86Ob9NZF\n\
    hwlUg1rQkhVqM3GcSvJruV2hIQLVs1aeFdvMECbnjHdf4uqnpiknYc4ibbkLsXSiPQQUjbkmGrbIuhRH\n\
    oJethscJ+PzDq7MWhHGJmdYn0w4CxQjSQ28RtXz8nrZga3LDBIrfmcbPGSOsLw6NLd2nAalu1Mmd9+rx\n\
    2lCPoo8aHifAVi2zCW/hBHyFpD5GiTECzM1KktajvK5JBR7T+jAB0oKS3AHESFugobK4A59+D1QCD0P2\n\
    XGFePbKuayCO8d73QEUhseTJFC0sfm3gj1bcPjnGCIC/Kps891Ev71Er5uMSk70EwJ8ETZIZ0UoAQwO4\n\
    ndEIgcjSVDMCFATcpL3Bw4N1mEBpTa0lWShaWGQhD7ywi0DxJ6ubRLKhFFFrNYjHDc0I/Pnz3wAAAP//\n\
    d8zA66QSAAA=\n\
    "

/-- data.go:1767. -/
def compressed1965 : String :=
  "\n\
    H4sIAAAJbogA/5yYy2ojVxCGX2XobSSo67m9QVZZpHchC+FRYMCWJpJMFsO8e/7TCRNodWV6DshgsPnL\n\
    db66/OUv0/395eV8v0/tcXs/H6bz7Xa9Te3y/vp6mG7n++fr5X6e2m9fpsent/P9cXr7PLUje06kVfUw\n\
    fTw9zjN+9POvv0xt4pr8SHwkmYUb5Wb5J6JGNB2ml+tHKNFhupze8M10Of/14e16vUxfD2v1VFmFQ3Wm\n\
    Wah5fVbnb+p/fLrdHx/+fD/dHufbVghVq1rCEHlmbYoEZBVC/guBR4oy8KyVcorkxWbG+5RmtpLXb/Kv\n\
    p/9NwEkKV9uOIAgyc2qamqURAqbJisbqdcYf7/Ksvp+A5kqacxSC0wxlyY10iIBySlk5khedyZsBQh0l\n\
    IJaIlbYjKD4z1ea5OY0Q4CKpSNAD2nuAcyfg4z3AYq5SwxC5F6lYUx4iQF6qUlBDehSfSZqWxqghHiFg\n\
    tZKkaApZn0IQFlnmBP8oAatSU7ZYvXZ1o4UADxGwkmouEhSp/dsDeCWvqxC7CFhBfVoNWsx6D+Bx0Mii\n\
    owSyumv0Rr5MoV6imKQjBFLOhEEaqpcZK6YvGh4mkLh3cfBEjipeEtBlCg0QcDNLSSJ5EGBMIWlcRglY\n\
    4aQeElDqjNmwjEcImJiRB8+T8OlrEi/0VEH7CSjGhHuwiRN+YSY8Py2beICAlOIS9UA6CmZE6lNovAdE\n\
    inIJE5DaNw1KSNcJ7CLAmTlHFZSBuHshGJWnCtpPgElqiXogHxlFWhoN9wCpukXvk4/CXd4dZTRIQGt2\n\
    KR5sYkQovYnNl038wwS0cqpIYFu9YJD2CrL8zHc3AS2WSk1BAuXI0q0ENjGtE9hFAC6rGgZpJC80k3Uv\n\
    8TQjdhPIIoyvMALmBLwQP1fpLgIJUzpHU6gu18ZiFcenkHqlknOQQD0y902s2mydwD4CLl6FgxqC/FKh\n\
    /aIZ7gFUkGcO3FZd3Ja13sdrt7WLgBFWffVNdaZOoJ9LaAMfJoApATe3vewRohtezAhf3OgAAckY04FX\n\
    7PK511AXHu4BwairtH3zIUK/+UCAm65vvl0E0AEEt7Ktzt1pdSOH51nfM/sJEMYEl+CJeDG8SCA9nxz7\n\
    CBDD7AZTCPLd7HLfA7KW30tAqherwaRGhH7zIQE49vVRv4cAjESpUoICXS5u7HkQ4PW5tJuAFDF4xgCy\n\
    dMOLow9+TtaQdxGQnGAVy/aagTzMbr9YMeTWF+tuApm4uG2PUUSQf/4vZMse+C6B37/+HQAA///g8QZw\n\
    oBIAAA==\n\
    "

/-- data.go:1792. -/
def compressed1966 : String :=
  "\n\
    H4sIAAAJbogA/6RXzYobZxB8FTPXSNB/3+8b5JRD5hZyEGsFDLuSI2nJwfjdUz1KHBipk8ln2MOCRLe6\n\
    6qvq6i/T9f3l5Xi9Tv12eT/upuPlcr5M/fT++rqbLsfr5/Ppepz6L1+m26e34/V2ePs89T1Lyk1aKbvp\n\
    4+F2nPHRjz//NPWJW8574j2VmVLn0kl/IOpE0256OX9EJdlNp8Mb/pl+Q48Pb+fzafq6eyjPwolSVJ51\n\
    FlTlrmlVXr+Vfz1cbx9+fz9cbsfLkw5mlpJR1EF45tStdKNVB/rW4XT8I/r9WrRVCeGRNnPr1rqu4eF/\n\
    4Pl0+dcBlK3WEkAke0o+QKrd1hBtY8AZTtqi8iwz1Z6sC48ywLWw5gAj2QvNTD3RI0abGGCumEHD6tWr\n\
    LxQPM0CZKkkAkS4a4G658xqibQwQUdXGUXm2GVVdBm2QAW5KzBpgpHsRF7FrABjx/2WAa9bacggPNCCA\n\
    R3viVfXNDHClXDUHA9iiAemMFusBNjHAxYzJwvLQANcuDT63Kr+ZgVy0phZgZK4BYKS52xqjTQxkplIj\n\
    fs01QOYuJOvfv52BlKQkCx5pQpdZBJV7akMMGDyCS47KOwPiGhAbZcC4plLDAe4uhFeq6wE2MaCpGkce\n\
    h+qwiPa3xw0yIK1qilq40tyo7UmLbQwIPKJFLpTxhZmyE0xrfDYzwNkkSw07VNcAYFIZYYApi6hE1QUW\n\
    gSUm3eowA7AIay1goGDbeFhxEQ8xQK1ophZooOALLjFLnUY1QA0ghWGuOAPYAwqVrQfYwgDVBItugQuV\n\
    vdiS5fA37EJwuYo2wROqSFwuYt9l6ye0jYHCJZUcMIDySHO+YzoPM5BTQeQNB+DsPodNnEY0gJxCCFsB\n\
    v3Uv6nuAZAnrgwwkFSoWQqTsWQhKe4BoGwMGERcJ3lBDh5kUD+hx0W9mwMikRCJunrbwSkHzmAYUx4ZK\n\
    AE/769oQ67qGZzsD2MPJ4gH85ECSq48DbGMA9Bar9rQ8k4ddsItNo3mUARx8CNTPB0AHz7uGsNjTEANU\n\
    W2ILq8uyxxQPdFwDLrJGz8Oct2iLCyHPjdwDDddYrREB7FkXa4DvBIycAw1hHXfr84sYDTxrYVPC5QYu\n\
    YmQUQaHn1yqKI2bdj5mHg34r/K3AIqDgsAMsAhYKkxtCvxD8gZ8LmJdrG89HdFnCQ+hn8z3z3OH4fm+r\n\
    G+jDvboF/VS0mQXoo/j9FJPvQB/alUSBvMSDrruPLeL9b/R//fpnAAAA//+l4wVimRIAAA==\n\
    "

/-- data.go:1816. -/
def compressed1967 : String :=
  "\n\
    H4sIAAAJbogA/5yYTWokRxCFrzLU1l0Q//lzA6+8cO2MF42mDANS97i7hRfD3N2RKTOGUsVQStBCIIgI\n\
    ffnyxcv6Nt1fn57W+32qj9vreprW2+16m+rl9fn5NN3W+9fr5b5O9Y9v0+PLy3p/nF++TnUuIlZKstP0\n\
    +fxYF//Lr7//NtUJi6UZcAZeUCpBJfkFoAJMp+np+tkL8Wm6nF/8l+n5fH98+vv1fHust+n7adOAs6Iy\n\
    Rg0QFswVUpWyaQA/GlzWfz69XK+XneKoYhQXzwuWKlR1Wxx/FP/ry+1n45MiUAo7kC1grQNsO9D/HfwI\n\
    gvmxMBXi/erkDRbiClI5DdJHygZKYYOyIFTRKnmAPmgytHB6TAtq1VRxO/1R+rkUk4IQdSBZ0JUjVWGA\n\
    fi5cIOdgfm7ah1IR/V8Yo59zQtNofJ4Rl3a2WHk7/gH6OQNCLnHx0qb34o0NDtFPQmI50D537bs3YL9d\n\
    +GH6loUyBfNL134rXWU7/1H6hmIJgvGlad8vl/fg7fhH6LvvIIpExV37XllSZRulLy6fZCnq0LTv3sBV\n\
    eYS+s89sAX1t9F34LF53kD5rRi7BYtHuPG4O7p0yQN9NU0rkytrouyu7NcD2aA/TJ1aipFEH4na+5L6v\n\
    I/Qxee0cnK3O7MbgS4srb8/2KH1fWsIUjG8z5A7IzWc7/hH6wMUbBL5pM+qC1Hyzba0h+snra4ZAPDYT\n\
    LdDFw1vxHKGfChoqxdVLTw3ofMbopyzJ2Mp+g/bTMw+4O3+cfko5qUYXK83ovmBNO7Sd/jD9Jk6yIDSk\n\
    mbBdXc5V8wh900IWJc7U6XP1Bu/mP0pfC6tCYG3ZT3hx15TsqXaAvrovSAq0n2ek7vs+/bD2xfETBlc3\n\
    zwRtfLJKI86TxI3BM0lYvRsDa4/jQ/S5mUMOjrf45mrmwK7QAd9PHhh8pwT0y3+BCt4S5xh9QisEwdUt\n\
    /UWRWirR7dU9RN8TCRQOpFlaovKV4nmWB7duAo/7Je3HEoQWadvacvlvY8kR+kBZLdiJXrw95fzm7uzE\n\
    o/StGKAFe711yC2VIL3f60fom6dlToHve3Wnj2+vrUHnscyEEqx19Md0X1vuPG2tfzTvW+pXK5geW6Dq\n\
    Q/etNfTasnbASffV6R1aqvKnllQceW2ZsXIK7q5XJ128qEtz9LVl6qtRLe836I9pX4z+3GUaoK+uS5b9\n\
    ndiKv/mC5/3tQ/owfRG16FuGd0Drz5WdbxmH6LMnNouM4e0lDU2azRgO0f/z+78BAAD//+UWSMZzEgAA\n\
    "

/-- data.go:1840. -/
def compressed1968 : String :=
  "\n\
    H4sIAAAJbogA/5yXz2pcSQ/FXyXcbbpBf0tV9Qbf6lvM3Q2zME4PBOzuTHebWYS8+0iXkIHr1lCu4EXA\n\
    cCT/pHt06vtye3t+Pt1uS79f306H5XS9Xq5LP7+9vByW6+n27XK+nZb++/fl/vX1dLs/vX5b+rGQ1krY\n\
    DsuXp/tp9d/877f/L33BVuoR8Ai2onTiDvgZoAMsh+X58sWF8LCcn179P8ufX6+3+6e/3p6u99N1+XHY\n\
    VcDaQNCyCqgrlo5egXcV6N8K/kd8er1czg/UyZhKqk60Yutcu+7V+Zf6y9N/tQ/FmlFeoEX7jP4X7ArA\n\
    rwLn099J9wDA2vCxOB2hrEidXLZN0tfGTEqcVUBZoXSRzjZBX6txE9VMnXAF357WQT8DTtDXikTINS1Q\n\
    V7Cu1oV2BQboqwkRW7L7vO0+BH3Cnfgw/WKVsaQVnL5vp3LXfYUh+oWgUKFM3en79oDvfp2k7/8at2T3\n\
    Oei7Myhsn+6H6UtVVEq6l9j92B173/0wfSHBwsnuyxF5Be1KXWyGPhcDIknV2+qrw25tZZI+tSbEaQGy\n\
    cB7y9vcFRugT+WQzNuo/K/rixABm6aNBkVqyCkhxWXwAKDP0EalCSft3+uFruvnaFH0QBs18X4O+f1k/\n\
    ff+j9KWZNKzJ7hefbmymlPndd3lTgqT9ckRYKXp/3/4Iff90zRST2bq6ha/5eGU/20H6YtXismcFSMN5\n\
    SN+v5wh9I1RQeCxu7myrgxHqDLP0SxHBbHks6Lu3oW2p5OP0C2C++7bRh+7Wj5O7L8pogslZt6Dv6tL8\n\
    +5qgL8UTZzbayFRbYnsw2mH6glBrSeYbP9E+R7Caoc/i5qNp/+h3i2P3YZY+WfFInixPPZKbA3R1659x\n\
    HsIi6U2sR8YQ96v1rvth+qjFvT+JbC3uejwnrMM+sg3Rh2qtWHIUWyQq9zWfLUxeXfGb7kc3LRAPCor2\n\
    eeLqcivcEJI82OIx4VfL7wrOJk5ugOlrC+Hni0IeLM8Ifa4MhpaqR54t22z36oP02TwxaxIavIBH2gg8\n\
    3Hl/WEboG7pr6uPXVojXzffBnW2Wvtu+R57Hdx0xUpXfdT9bvL/rQ/TV2HPDY1t29ciz/prQ6deWs/HX\n\
    aBLJvQBBFHBp3Lc/Ql+0xFVJxW1zHne2afrsoaEmr2mkjT7E10X7CkP04yZqkhpcPehjPIZ0f1VG6ZM/\n\
    tkgS+hSRNkJVm6NPAOzTzcTJfSGiuC/nKP0/fvwTAAD//4hDHaJ0EgAA\n\
    "

/-- data.go:1864. -/
def compressed1969 : String :=
  "\n\
    H4sIAAAJbogA/6SXz4ojRwzGX2Xpa2zQ31Kp3iCnHNK3kMMw68DCjL2xPeSw7LtH1YENdLdCUwEfBhqk\n\
    ml99+urTt+nx8fp6eTym9rx/XE7T5X6/3ad2/Xh7O033y+Pr7fq4TO23b9Pzy/vl8Xx5/zq1MyN5KWan\n\
    6fPL8zLHl59//WVqE3rxM+AZeEZvVJvwT4ANYDpNr7fPUYhO0/XlPf6Y/ogWn95vt+v0/bSqDoVQSbPq\n\
    iDNqi7qoq+r8o/rby+P56c+Pl/vzct9pAOJokjaoM5So26isGsCPBtfLX/unJxcmEsqKk84QbKhxXRXH\n\
    f9l8uf/H8akaiWbHp/jNyE2twfr4R+hTBXNRz6ojzL2oxwWM0SdTIJb0+FhmtEbWeIR+qSoEiXboTDKD\n\
    NvKma+0cpl+wAJTk+HwG6eLB2nSIvqoUsZpVD+1DjFX8CzRIX1zRJW9QOyCVhusGR+hLXK6URPsc7Lp2\n\
    JNgMa58LqJfEeWTRvjexhiPOQwxYJZvdqO4zSlOP6x2kT+wVakJfFu336o1H6KMBFoaseGifoEmIE0bp\n\
    Y1hzMd7voJ1+136o00bohyuDZL4f1etMYfq0nd2D9NGroHhCXzt9WJ6tzXAdoI+OXAokvqmdfrgylsZr\n\
    3zxKH6uGOWPJOjB2dXb5ywB9NFfzktAvZ7AZpAk0HqVvVMlrMlzljPEwQmhzO1xH6BetJJawKTHZM9Di\n\
    m2s2h+mrx+h6cr/Rwbs6Qbfv4iH6KmhGyexaNFjutkbdQfpixGQJfYvvPVTFcMEIfQF2LgkbC9tbtA//\n\
    Q/ssJZw5uV/r9IH7/eqQ9qkWK5xUrzFcXT3sW/UcpU9hzEKYNUBejDN+PkAfFZQ90U4NX12UyY1HfR/B\n\
    WcJ90g42I8abFd45Qh8i8deaJCpftgmLyLANhAfpe2QGhCQzeM9U8S5G5NF1ZjgAv7oVz+Y2ai+6pG6c\n\
    g+xrTJbX9PCxTsTlxvmHAo9Z5Cne93yEhXw4QuxCg55voIC8f/io3ze5MAXb7okHyBcRJ9/XZK9d+2PO\n\
    PW4OktcqXGH/aqPBP4ucxO2ur/YIeUW16vuOg7gkqdqTFAw6TsBxSTTf68drxX2LG9E8x/JcfD8FRu0e\n\
    Ykv3YlinwKPkmSoXTBv0JS4GlrcNjq1YVjGxYly258g5ilsrPpwylTjTPC07RKTwbsgDVs8WMSc9ew+w\n\
    1G91c/aj5A2Fcd+Jo36kqL6bhJsd2m1///53AAAA///qdGyaYBIAAA==\n\
    "

/-- data.go:1899. -/
def compressed1971 : String :=
  "\n\
    H4sIAAAJbogA/5yYzYobVxCFX8X01hLU7/17g6yySO9CFmKsgGFGciQNWRi/e87tBIe0VHHrghYGi1Ol\n\
    71adqpqv0/X95eV4vU7tdnk/7qbj5XK+TO30/vq6my7H65fz6Xqc2q9fp9vnt+P1dnj7MjXlwlKl7KZP\n\
    h9txxn/89MvPU5u4Zt4TPjaTN/cm5SNxI5p208v5E3R4N50Ob/jH9Pvny/X24Y/3w+V2vEzfdv8NIGa5\n\
    Vo4CMM9sjWtzXgWQfwPgJ3x4O59Pd+LKnpxqKF5nKFNpUlfi+l389fA/yWvOxWqK9CXNos2teVrp03f9\n\
    0/HPx7mbulIKtAWfmR3v02itvZW8E1fQiQIwzSBj1JwGyHuWLBaQh3iZWRtelgbJJxVVDZMXn5malfvk\n\
    N5BPlYhKQF6XmtcGVRkln72isYKm0j1LD6CIsW6qLeSLFBMKGkr3Qos44QeMkS8lqUVlo0vNUxP07AD5\n\
    au7sQdXYUvOpGQxnXTUbyRtxEpEAjvWaF0bmTQbcxqhIthSQsX9q3jO+OETe2Aj5h8mj5uHFJPji0+R7\n\
    xeRE+bG2d/IwA5Sk5EHysANJOUjeO3mWXjY6Ql61d1RAHuJ5eVa/r8mN5LXCcHLgCL4X6y+rMuLzZl6s\n\
    pKDmE8bIDEnje6fcSt4lo2klDFB7ADI80QB5L0Wthtlzmml51ruO3Ug+GcySLNIXmQXYMcHtefKZXY1D\n\
    MEp9O4AZ8BrMVvK5cLaIfN4TDIFhqOjZAfLFyEoNyOQ9ww1Sn4C8JrORfCUYpQeOkDv5jgZevHaEDeRr\n\
    FiILwehiBpSbDJJ3UkdbBXAKXrcPKcP6sYazgTwWSgGcYHyXPWt/Vvj83fjeRh4TMKeSAjqlT/C/t8o7\n\
    Oj8m7yJFYGWhdu3bAXLnQZ93KZVNAzgVbrkMKcQY2G3QronxtpF4PxZqk64/Rt4YTh/t83W5FxzToPHz\n\
    Pu9WFHdOqC15ZjQrhuzgVulukor5wwBMfW3FkOpl7wPkE1GmoKEgDvJwG+09NUY+ZcpcHtdl1699//AK\n\
    T32efNZKlR6ThzbII3fcsKOXlOeaYPMBnH6P9PVj2Yo/Ej1LvoBN1cc138VrtzKXxroS30i+Sk452G2g\n\
    j6217x9pqXl6knytuDL1sZNBu19pqJq8TFgaIJ/IqXBgxbwcyZgiGIJWniefmE0wRkLx2rPHeqNr8W3k\n\
    E2NCoTgjfWyt/a8TWG/WL/tj8kksC4w40u63AlYPX7aDbeR/+/ZXAAAA//906gYWQxIAAA==\n\
    "

/-- data.go:1923. -/
def compressed1972 : String :=
  "\n\
    H4sIAAAJbogA/5yYT4sbRxDFv4qZqyWov/3vG+SUQ+YWchBrBQy7kiNpycH4u+f14DhkpPLONuiwsPC6\n\
    +HX1q1fzdbq+Pj0dr9ep3S6vx910vFzOl6mdXp+fd9PleP1yPl2PU/v963T7/HK83g4vX6aWNItbyrvp\n\
    0+F2nPGPX377dWoT1yx74j2VmbUpN8ofiRrRtJuezp+go7vpdHjBH9Pz4Xr78Nfr4XI7XqZvu//rm1Fm\n\
    o0if08zUXJrQSp9+6J+Of394OZ9Pd9pOlKqlSFt0ptqkNkorbf6h/efny0+K98SZcokOUFqKz83L6gD5\n\
    7wDgf1x9UqqcgurxyzNzY2m2rn4j+VRRvYb67DNkpTRf628gn92oaI20hWfOuNKmdZB84cJUgrbBAXUm\n\
    beBz1zZbyJdSkok9Ftfe85Rb/9kY+eqUcbmRPsijcvVGazpvk8+EflSWSFvkOxiXj8QD5NHvlq0GbaOd\n\
    vEDXlrbhd5KHEzhXDdzGes8DiHnTvBLfRj4LmVMJyNuetRcPN5O60t9AXpIwOifSFupOadasDJJXZSXn\n\
    8IDy/QDmAfJGpCLBtfqeUheXvHjlCHnzXFgCOt7JExq+3NPZQN4ZQ0oCM/BOnqSxL2YwRN5LdkmBIXgn\n\
    j+IBx2yAfIJX1oh8ws3OgvEnw+QzM4lrpM/wYmmKOaXvJ5/hY0QBGGijJVMzWpxyiHwxFeOg59Ne0JYV\n\
    E7D5SM9XSkWTPxbPnTx8TFIjHyNfE+ysBMXnPdO8jMBm6+LfJl9IqnqUm3In3x+TA/4Y+UK1qJXAinMn\n\
    jwMEdra24g3kC3slr0FPFkzwnsz6oFr35DbyBU7sNRpS0Ec8SP1mdf2mNpCXkrhQ0DVlz3lxG7rvmq3k\n\
    1QXVByO87MV6zwvgrEf4FvJ4TKpRqix75WWIQH/MbYpltRqlyrqk1vJvqnwvee9mYAH52nMT3hPbOPmE\n\
    fUEpeLB1WRiWISUDblMSMqWkWLwu1ed7N9hIPsMRJOh5piU71V48D5AvRJixj1sS2j2xanPMwMFUicDd\n\
    94XHV4sDEFt5sWJdX+0W8hUmnIPg1MVr93nDEOShPF8qqq/0ONsw9+yEmhEsbb0Gvk0eNplcLNRmW1qS\n\
    7rU3kq/MBvrhAQhPsBosO3cHbCBfsWCaWkAe4rnvgX1KjZGvYuoUFd+zWX9TGFIyQF4ZMvx4V4A2Eiuc\n\
    DFsaD+6wcMkq2YJHJUtsrQscGSBvPZgFnya6eO6fJuTBp4mI/B/f/gkAAP//uQZt90ISAAA=\n\
    "

/-- data.go:1947. -/
def compressed1973 : String :=
  "\n\
    H4sIAAAJbogA/5yYzWojVxCFX2Xo7UhQv/fvDbLKIr0LWRiPAgO2NZFkshjm3XNuO0yg1RWuGrwwGKrK\n\
    3z11qqq/T9f35+fT9Tq12+X9dJhOl8v5MrW395eXw3Q5Xb+d366nqf3+fbp9fT1db0+v36ZWnZjY0mH6\n\
    8nQ7zfjDL7/9OrWJa9Yj8ZFsZm8mTdJnokY0Habn8xfEocP09vSKX6a309+fXs/nt+nHYRU7JdOiUWyW\n\
    mRyBm+gqNv+M/efXy/X26a/3p8vtdLlLkMTIapygzMJNSuN1AvkvAfBsV59KTuoeBZc0U2r4B9xXwfVn\n\
    8Jen/yk+e65agvhyJJ2pAg1SPE6+CJ41Ii9HppmtkTXbS77kyp5LmCDPjLipcdlBvhrQcFi9+EzamJuv\n\
    qx8jz0SshWrdToAfJEBc6KY+jB7BsypLjoIzL6KE8PM+9uhXNfckYYbay1dB234mfhA+k5Dm5MHT6lFy\n\
    j265aVlFH6UvqbhHjWVd+IzaPxqLH6WvkowKR8Gh/O45pRGvgg/T10rikXhskT4aqzave+hbopJLoB7r\n\
    2ueC0HiAnfRdxFiD8h391eXp3nRd/gh99G0WCrSD4HVm7bZga+0M00+WJOVgXnmn3y05N0976GdOWZyi\n\
    6N15gJ6a0076Ga6vFDxvwlzp5as3Wj/vCP2i6tBPGDzPIt03aV39MH1I3yzSfjqyd/Go7dR+zfBND+GI\n\
    zkKLMezUPqynFE2BPNNRqTuPYuqu5TlAH/gLw5a3g+dOv89zv1fmKH1mL25Rd+VOH+X7RneN0Gf4Qi7R\n\
    MpU7fSwM/rFM7aIv2Eo0xQlgDt01l3XwYfpqmFoSaL/0kY5VSvJ+7bOxwXmCyVKObMtWAudZT5Yh+pb7\n\
    0A2GYjkKz2jcf7fBXfRdPakFSwMSlP684vdLwwj9RGQswdPW5YrAmi+N1k87TD8lnCoR/dpvCWTYTR+e\n\
    rBzZcu0bFULjAfZOXUZn1VCetR8TWBpcMVt20C/YxFPd9gWmhT5cme83tmH6Vaw3WJShX3IGA2+65jNE\n\
    vxbF3N1WT49eeu9iquhO5xEyVy3b2keCfsqh/K7Qx+kLWiuxbvs+83LHpb5x+vqCHqUvXT2Zwgwf1xwy\n\
    3N3oI/RFNEGZAX1eNqrUNN3fiqP0lbjU4KBAArHF9zEY17fiCH1F67Ju+yZ/XNHLJ4C7K32YvmGr0mCr\n\
    4uWWRgbw6ZPlcfpWcTEWC6OnxXlwUNhO+u5VUzDWkUCWDzy08Y1ki/4fP/4JAAD//0S1NOVnEgAA\n\
    "

/-- data.go:1971. -/
def compressed1974 : String :=
  "\n\
    H4sIAAAJbogA/5yXy4obVxCGX8X01hLU9dzeIKss0ruQhRgrYJiRHElDFsbvnv/04Am0VKbnGC0MA3+d\n\
    /uqv2/fp+vr0dLxep3a7vB530/FyOV+mdnp9ft5Nl+P12/l0PU7tz+/T7evL8Xo7vHybGkuS6oltN305\n\
    3I4z/vLbH79PbeKabU+M38ylUWpun4ka0bSbns5fIMS76XR4wX+mv79errdP/7weLrfjZfqxW0cohZJQ\n\
    GKHMLE0ztFcR5P8I+IhPL+fz6V49W3IXidTZZ4K0N5GVur6rPx9+9fzCmWrWKIDozNxImusqAL0HOB3/\n\
    DV5fitXqNRJX7q/X2riO0q8mTinIr+wpzaJNDL8B+kqkohKqs81d1O/VN9JXyqZKASDZi8xQV2+0BrSB\n\
    vrJW8OHH4vrT+9KEB+kr11Rq9jACvE+LeXyEviRKtQSVpd37DOukJuvK2kof6L1KiQLA+wI6SG/5TPxR\n\
    +oCfxILU6uJ9aWZLanmIvjkbUUDfFu9LWwy6irCJvnNRy4F7rHufvXluziv1rfS9eC4WFJd176PzcF6K\n\
    68P0k7lyDvomxOtMpXcelVH6GV3fovx6p08VY+U+v5vo5+yeLcitL/SpSb3P7Vb6BdaxHD5feBZuamA0\n\
    QB9NoQjlUBx9AWDQmPMo/ZrYcwrGVkKKe99HAkQH6BuhsyFCpM661G5qNOh9o6oJHxEFEOp9332IvnGf\n\
    iBF9iKMvwDvoC6P0TThrkoB+7vRZm9EgfSnZagQn7xmNAU2/NF/D2UpfLWW4JwxQ+/OxFHIaoG9kkjSo\n\
    3NzpkzUnTPVR+pbVxIKxVTBclgj5fmxtou/Ibli7Zc+YW9q9b2v3bKXvFUO9BK0ZAXK3J6Rl3Zq30E9e\n\
    KXmwM5S9WPcOtnGlUfoZF4VH+a19q+rV5ff53UQ/10RUg9xC/c2a6Mzr3G6lXzAXLQ7AaUkv/DOw81hl\n\
    51pCNlioaLm2ZNj7UPeoNzAtO22Hc98bttB3Qt/x/Nj7Xb303ML7POh9Z8pcUhigr7Rv58o6wAb6jn2n\n\
    B4jEZZlazveVu5W+i6H7BLcuIvSdltsyXAb2fVcSQwoeq+OSzsvULcPXlmNm4Qse2xMB3s4516V0P3pt\n\
    ueGY8GDjhHhfqOTnxjl0bblVnEM1oM99p8VG3u0/RB//Enbax+rLJY2NE+qWBuknHBT4gigAlqo+1tPQ\n\
    reuplEw1fD3o41bsbW39+s30swuzhM/vF4U2l/vnP6T/14//AgAA///kXyOa0hIAAA==\n\
    "

/-- data.go:1995. -/
def compressed1975 : String :=
  "\n\
    H4sIAAAJbogA/6SX0YpjNwyGX2U5t80BSZZt2W/Qq1703JVeDLMpLMwk2yRDL5Z99/4+XbbgiRbHCzMQ\n\
    CEjKp1+/pS/L9e35+Xi9LvV2eTseluPlcr4s9fT28nJYLsfr5/PpelzqH1+W26fX4/X29Pp5qRyNioZM\n\
    h+Xj0+244Ztff/9tqQuXHFfilXTjUilVpl+IKtFyWJ7PHxEoHJbT0ys+LC9P19uHv9+eLrfjZfl66BPk\n\
    qGTqJWDZmKpwFe0S0PcEp+M/H17P59P74EWTlCxecKGNY2VUL11w/h78r0+XH5SfiFLWENwMec9ANYQu\n\
    g/yfAS24X3+ipJQ8OLJS2IBetGoPZ5B+4iC5sNNeWZk3QvlWQ9/eAfpJSHLM0Q1eNso1lBriLH1JVII4\n\
    /ZVV0kYMGVTp+ztEP3BJmhw4oWlfdmnSpPZTKEQs2UsA7UuoalXzBH2NOVtxg0P7rXStEcF5in5kNcyv\n\
    mwHa5xog0D7DEH0opxR2Jkub9jlUgTpDF32UPnqLDpiXANrnXZ7RugQj9DOzaixu8NIGS6nGMks/J8Mf\n\
    exkkNnVGeAPP0DcYg4lTf/zmPAp19vWP0i8koYhjDnF3HqtgJHGCPuaWCrnVszVlilWZpZ9JxEpxnCc2\n\
    +o0PxCMT9DNZSW70BGvb4AfwBu6jD9LPHDNndUYXCUp71lE+9aM7QD9LM+bsKDOtnNqbGHONvTKH6UvO\n\
    qp43pFVCG90Y9lf3cfpBkwLP/egZz/puDHgUezij9JWZimecudGH8Knsvv8wfU0WoznazyvvvqDpJ7Qf\n\
    g0QpTn9zo9+2Eqs84zw5kRj+vegBxoCxwnM4q30YP9ZCx/cNOTaWJk+a8P0M8UdiZ2OzlXWj0CY36Cz9\n\
    bCbqbeS2Cu/9hfxphj4edOBxbNnWQLvzIEFvy6P0CxqQxRndAu9s5WPj1H50R+gjSOTgVF/2YwKttRr7\n\
    6kfpGwGOeRdF2S8KZOD3zjxC35hDQn/d6Nait9ntpTlI37jtJZTuJmBq9LERQp6SHqdvEnDIORsngoM+\n\
    SeWf2DgtEAA54kEG0Ifz4KigGd83sC8p3KffoudNpEVnm9v3TSWyd20xf1tp28E1cW2Z4pJOwQ3OUKa1\n\
    yX13yg3Tx7MC+7nvbS2DNT5Sdm97+NqyhLUBp7QXvd1yCesU1DlJH90t+A33E/x3TFN7WGJ/jo7Qzxo1\n\
    FDd4o6/7MTF765qxxqT33/WWwVoGXBRtI3+cPsTD2Pq96Nhn2+DCfEa1/+fXfwMAAP//f+pynHMSAAA=\n\
    "

/-- data.go:2019. -/
def compressed1976 : String :=
  "\n\
    H4sIAAAJbogA/5yYzWokRxCEX2Xp605D/tbfG/jkg/tmfBDaMSzoZz0zwodl391RfVjjGqUpNZqDQBBZ\n\
    +iorMnK+L9e3x8fz9bq02+XtfFrOl8vrZWkvb09Pp+Vyvn57fbmel/b79+X29fl8vT08f1sal6ruUuS0\n\
    fHm4nTf85Zfffl3awjWnlRifja0ZN5HPRI1oOS2Pr18gRKfl5eEZvywv578/Pb++viw/Tv8Vr0RaJVEo\n\
    XjeWLk40iPNP8T+/Xq63T3+9PVxu58s7FTIJk0YVOG+E45cmOlSQfyuAUHB+lpJUc6Quuok28qZ5UNef\n\
    6k8P/3d8/GSNj6+8UWrCzcbjz9CXJFyd3xeXlcrG1E/vfJS+ilPKHlVg3zg1s6Z+hL4WyEuJ1EU2Ko1z\n\
    o3KQvlkxjY8vtV+vpMbj8WfoO/SVg97R3vvoTC33vTNN33PFy01RBU4bSXNtlo7QT5pKFYvUQZ9rc29i\n\
    n4mP0M/kmi2gr6vSxqVRRYcOBWbo5+ycKaBvK+VNgAQPKw/i0/SLKrkF9G1l270Nx09DhSn6pXIpNXBO\n\
    W4X33rfmdJB+hTkIB4/Leu8zTJ8wIT5MX4ikGpeAvnf6sDVYgxykjwoleaEaVWA4M4TxeuvH6QuxZfRm\n\
    MBR9FdpEMBGbyyH6gplVxCwuUPvTtbxP3Q/Thyk4R53Z9TdWdMB9Z07TV8MFxBUYzuy9O4/0vpCRFgzG\n\
    UL32SILuUT5I37I6cVhA8saYiuj9scAMfVerSoF4xtvqtib4jOLT9B2T0WpgnHnlPbJ1exiNc4p+SuRF\n\
    g7vNnT7lptR0vNtZ+lkyhmNYAPTR+30wjgVm6OeSOUngCwVTfU9syAyjL0zTL1aEc+BtZWXaMGwN3jB6\n\
    2xR95EGXqDWhXjaI4vke7v1aMFiiUFVW8T628B/IAd9HEMdU58DWal8meuZJ9745S59RwlmCuVj3TKuQ\n\
    3zeKD9NnziaWgrutPVH1twvd8W4n6bOoJ6tBe9Z9oaDmGOtje87QF/gORS+37oFKeu/4Ud9n9Vo8SCVM\n\
    nX5fJ+DMh+ibkmmQGqDe8ywSZ73PbLP0rVTX+n6kRQHQRyzpNcZIO0PfLVsOeqeL154Zuv7BvC+ckGi5\n\
    BPSxTafubT1Vjdv0FP2Em0V2iNSRZ3F+g+74RcAs/Yxdi/L77YkCiLSYugidPK4rM/QLqdYUi5fe++gd\n\
    GcWn6ZdsxtHxpdOHN3C6P/4U/WqUPPA1qPdtAnnE7+92ln6tGFv2vvOgQF8oZN+26sfpIzRQ1mDb6uKl\n\
    Z4b+Lcx07//x458AAAD//5nMr43REgAA\n\
    "

/-- data.go:2044. -/
def compressed1977 : String :=
  "\n\
    H4sIAAAJbogA/5yYzaobRxCFX8XMNhqo3/57g6yyyOxCFpdrBQz3x5F0ycL43XN6DA6MVKFp8MJgqGp/\n\
    VXPOKX1brh/Pz+frdWm3y8f5tJwvl/fL0t4+Xl5Oy+V8/fr+dj0v7Y9vy+3L6/l6e3r9ujQRVjY1Oi2f\n\
    n27nDf/y6++/LW3hmvNKvJJvLA1/hH4hakTLaXl+/4xCclrenl7xl+UvtPj0+v7+tnw/HatXSzWVqDrL\n\
    xrV5alQO1fVn9Zen6+3T3x9Pl9v5ct9AXJmrhA3qxtZY8T84NKCfDd7O/wSvVy61Uo2KS97IG3OzeijO\n\
    /7H5cvm/52vJKTM/7iAr2UbavDTlGfpmRVgCOLIyb2RA3+wIZ5S+U3HO4fO59OdrvX/+CH3PWU0C+rJK\n\
    2kiaU5Np+smUWP1xB913Pzf2pj5DPxObR6up++5z09R0ln5OZlj/sAF2H5vjc/SLWk3RaLXvvmiT3BzF\n\
    eYp+qdkpBXxs3/396yI5dBiiX91yoUDXbGXahBqnZnSoPkhfSSiXksIGZR9vaZQODQboK1XWQhoVx+5j\n\
    LQ0D0En6ys6SSrD7jhF34YQ8mE/QV4EwWETfO/0+276Uk/QlZyHKYYNdebxv6AR9tWTFgtH6rjwGQ2x2\n\
    HO0wfSNzykGHBHPZBMvDWNAZ+paUrAbbg+pYzW658MVJ+q5gpOHzOXVbhz74zO4nIhMPdD+tYhv83ODq\n\
    dZZ+8uymQYdu7ft88fxjhyH6mQukJ65e+u7DFO1YfZQ+ihPXsAHoU92N5dhghH5xNfhuVFy06yZkzW2W\n\
    fmXKlYJMmFelLpyOVFVm6NdskP0ATsEC9S/LoDyT9PHlWs+1UQO2TaQp3a/nAH1j8go+UXGRnnl26Zyk\n\
    b5yQyC3QBnQonQ/2h47aMELf4Cu55sDT656osPuIbUdPH6UvCOQeGUtdGbaFRMj3tj5CX72YRrJWV4Fr\n\
    IQ+We1kbpm9cE9cgVdX9oqg9legxVQ3Rt1JZyuMvi2mnv8OR45c1St9dEwfnHBog0vbq9b7BCP3EuEXr\n\
    Y0vvxeuu+2BztPRh+il7qvJ4vugAX4foIzBLmsj7lpEaiB7vPvOeZ5GoaM+zM3kfulaIg2MRDfo5l7ut\n\
    z+R9K8nZy2Nd6MVzHy0CVdeFqWsLgUQyazBfXNP7tQVt4DxBH5qAaz24V1h6nsX7+ce9MkO/nyoQt2C8\n\
    0iPtj+f7xC8NyOKEg+Kx6/biuX+5iunaJH3nSrCtkI/sv/PgmuahXxr+/P5vAAAA//9nDUUBcBIAAA==\n\
    "

/-- data.go:2068. -/
def compressed1978 : String :=
  "\n\
    H4sIAAAJbogA/5yXz4pjRw/FX2W427FBf0qlqnqDb/UtcnchC9PjwEC3PbHdZDHMu0e6gUmovgrl2jU0\n\
    SNe/Ojo6+r7c319ezvf70h639/NhOd9u19vSLu+vr4fldr5/u17u56X9+n15fH073x+nt29LIyGpULEc\n\
    li+nx3m1//zvl/8vbcGq5Qh4BFqRGpTG5TNAA1gOy8v1ixXiw3I5vdkfy+vp/vj0x/vp9jjflh+HrgFj\n\
    zinXsEFdITXABrVrAD8bXM5/fnq7Xi87xTWr5hQVx7wCN6CWUlccfxb//evtvz4/Jc2ZIOpAaQVtola7\n\
    60D/dLAnCL5fkIsyRtUZV+Im1BAn6YsictX9BnQEXTE1yY11gn7mRMQcFce0kn06NOZZ+grJBBTwoSPx\n\
    asohU2fPZ4i+iUeUAvWwa9+FL4169YzSLzZdqAEg3rRPjetHQCP0SyWQaHLZtY+lETbpJ3eYfs2GX3PU\n\
    wbSP2uyJJX/2AX6Ofgb//BTCMe1jbmY+xF31QfoZCgJHgNKmfWvwt7Xhk/QzpppzDgYrHVG2wdKWtCs+\n\
    Sj8TChUOP9+1Lw15e9/n6ZPZTqFgsqx69dk180w4SZ85J6nBcInTt89PtUmaoJ8gZ4x8QZy+TW4y7fdf\n\
    P0zfVpY7Z9SByN/XxCN1hr6YOhWCyRKnb0uRsaV+skbpSyWbrYB+th4rgT/vFH1biFIlLI7sWyvJx+LD\n\
    9JWIlAL6+UiwmrExbaHhefqq1Xw5/H5Szzz2/dh//yj9kgpQDZ5Xnb5tRbFf0D/vCH3bKAJIUXGjjyZ8\n\
    MOucpV9VsErgber0PbLZ+/beNkJfgZPZsoTVs6vHtC8yR18Rku2tAJC7m29dW4nSAxqgr6iYgIKtVY6I\n\
    rkyLhNBvrVH6Jv3Clq3CDsXf181nZusqFZvcElYnkya7r8Gk8yhngFSDwFy3g0L9oECYoJ8oSY4SWz3i\n\
    pkxzNpp1Hk2FIHEgnuqpyo3TMm0vniH6kjLmGlb3ayJvcPrqo/QzSuG8P1wIW6RVT5zUD9cIfTNOLmV/\n\
    63rx6rbGpp3ZrWv1ba/TvvNYB7/nNvF8SFVD9Auwclzd6eOW9/vqo/SLIjHury1r4OccuHHixK2rlYEl\n\
    8H3Ef8VZmsz7Wi00SOAN1sHuObS8VrdU8vS1VSCjVt2fXatuicqck/K2dWeurYKWymsQGqwBg4dCA5Qm\n\
    6Be0KF40KL4d0m4KFtr64qP0C5kt5yBV4XZNWyph2FLV8/RNllnK/jVh1Wmz5cQ2XJP0udi9FT0veaQ1\n\
    8fDO8+7R/+3HXwEAAP///L9MNtASAAA=\n\
    "

/-- data.go:2093. -/
def compressed1979 : String :=
  "\n\
    H4sIAAAJbogA/5yXzWokRxCEX2Xpq9WQP/WX9QY++eC+GR8GbRsWpJn1zAgfln13R7bNGnonva0SOggk\n\
    RdZ8FZkZ9WW6vT0/r7fb1O/Xt/VpWq/Xy3Xq57eXl6fput4+X863deq/fZnun17X2/30+nnq0pI2MeWn\n\
    6ePpvi74zc+//jL1ia3aTDxTXpg75678E1Enmp6m58tHCOFfzqdX/DD98el6u3/48+10va/X6evTrkKm\n\
    bJpTVIF1odrJOqddBfmvAj7Eh9fL5fxAvZbcaonUhf38krqWnbp+U385/d/xi2ZJWcICbaHShXqWXQH6\n\
    VuC8/hWcvpiWQgF9mSkt0NTS0zD96ucniiqwLCQ9ufYI/abCKaIvs9BCcE/teZR+a5aLWFigLAw67p8B\n\
    +pbMKGKjm/dxtYrbHaRvJFSr1KgCvC9bd0kdoG8Ec2oKz+/ely6ynZ8H6BtjOpAF9HXzfuqQVtsVOEDf\n\
    hErFR3gsntz7jK5quKed+GH6UitTxCe59zm5O7/jc4i+qiU0V6huC1tXtG8epK/WqEgwedLm/e34JAP0\n\
    U0mwfkA/b5MHtkRvDdPPKlIo8H7eJo92fLv3308/G1srwVbJTh8NlWtPaZB+wdi3aG1lp++60nVf4Aj9\n\
    KoyvwDsFk23B2NH2vXcO06+YDS0Hm6XMTD4bwMf3+vvpt5S0pvD8XH0pAo6Met+oaq4B/TJL2o5vY/St\n\
    1kolGGvV6fvcT/jLMfpKhN5NFkweVDCf+z44ByYP1K0SbiBS5+JwYP9B7ytxQbDiwDzV6Xto4J735vkx\n\
    fSVRzWTBWGvIVO4dzH3ej7XD9DE6KbeADypsawsNRns+h+jj9DlF9NvMaUEa9L04Sj9xsxZ5v80Ce4IO\n\
    b4H53fRTaym3ILG1Wcm3FtJ4KqP0s2/FGnSXd68ncm/dfXcdol8oc+JQ/Z/XBNo379WP0i81Z4lGs22h\n\
    Cp2FAvvRdoR+TVIaB/QhbtvWJXyAUfoNWx2x7WEFJs+04pGkJx2h3wq2VrDToY6d7nEzd9rv9KP0TSVs\n\
    XRQAfU8MD1r3CH2zgrn8+GpdvC0M5bJtrZG8rwzzS9LHs43531SF5wrvH4tH6CMxNHjzsXugzrztLY9t\n\
    Q68tFGhNStBcXsB88uAC9P2vLWXEqZaDxAZxBCrfiYbFO0ofNyypBO7Ea1q34yMTDry2oF5Lq8FjCOpO\n\
    X32u5T2co/SRqaxF9GWLtM29P0Q/k+IKQnGPs7l7bNiLh/R///p3AAAA//8rnyohdBIAAA==\n\
    "

/-- data.go:2117. -/
def compressed1980 : String :=
  "\n\
    H4sIAAAJbogA/6SXzYpbRxCFX8XcrSWon/6rfoOsssjdhSzEWAHDjORIGrIwfvecvjYOtFSh1RnuYmCg\n\
    qubrqlOnvi7X95eX4/W61Nvl/bhbjpfL+bLU0/vr6265HK9fzqfrcam/f11un9+O19vh7ctSlWOKnGPe\n\
    LZ8Ot+OKv/zy269LXdgK7Yn3JCtZJamaPxJVomW3vJw/IZDsltPhDb8sfyLFh7fz+bR823XRk0alIF50\n\
    ppW5RqpBuuj6M/rr4Xr78Nf74XI7Xh4kMBOi4ibIq3AVhC5dAvqZ4HT826keXEhz9IJLWFlrtKqxC87/\n\
    svl8+a/yi7BlTo8zCJKsQI//IKYZ+sXECjv1I7qtlKumGvv6R+lbVGNxE3BaqdQolfoEA/SFmMUkeMFF\n\
    V8TkWCVM0hfKiO/R10Yf6FuSGfrCwbSwU782+qKt97mvf5C+CBWmoF4C0GerMVfRj8TP0peUxNUFbfTR\n\
    +/pdF3iKvmrSZM7o6l555QQ4NZYuwxD9ADIpOG8b9lRa/Wh/SV30UfohcQmFvQQcVwo1lEo8QT/icYM4\n\
    bMJepAVH10jPZph+NCmiLh+lNrqat95/nn6KhbIny3FPmyxHBp9J+pmjZjUvAW/SDO1km6CfcwmxuNUL\n\
    dKGJwv+gj87R7PU+MkAboPs22fvGVMgcOAnfSlAeTFYPZ5S+JcN4OeKQ9izteQPdi8MAfSWN0AZnsNJe\n\
    6IfycD9Yo/SVCV9xlBkZoA0QZExvmKDfTA9xdurPeN42WXhb7esfpA9thvpk8hKAPnQtZOyWCfpYuSRe\n\
    Z+ZGn1KbXJ3tfdWYhYvTPMiQt7WF6eqbZ4h+4IjojiUpWCybMOhmSaboh1wkefRLs7RNHLjyDP0YSszZ\n\
    YYPgpXmG1juzW1cTk4Xs6H7ZS9rWVoAtnKGfElSNnPqtOSq8bRuuvv5R+hkPnMmhb81UAT018ZmgXygk\n\
    S87kWjsmmh1J9yt9mH5JIWp0pst+XBQ4uHhG99XQ+VoeX1tM2zURsBG3a2uKvhnl4piGlsC2xUL3zTNA\n\
    P1AigWX2goP+d0PFvZ0dpR8Y95Y6yowM8LTNlQjkbYI++hKXnLhw4KhgGVRr6K+JQfoBoo+fx2udeTNV\n\
    7ZLe1vqz11ZQjiyO40Rw2FmcWlgqd4f0MH3Ngt34WBuQoXla8LFN95++tkJo3enXD0dFzU5tjnOKfiTg\n\
    Z6c9pdGHOGjc2vNp+jFtdtwL3o4J3uj3wYfp45ojdpQZGeBpGbdKmaSfjC169GWjn5pnu+sej/4f3/4J\n\
    AAD//35phWDREgAA\n\
    "

/-- data.go:2142. -/
def compressed1981 : String :=
  "\n\
    H4sIAAAJbogA/5yYz4obRxDGX8XMNRLU367ufoOccsjcQg7LWgHD7sqRtORg/O6paowDI1WYbRiDwfBV\n\
    69dfV33lb8v1/fn5dL0u/XZ5Px2W0+Vyviz97f3l5bBcTtev57frael/fFtuX15P19vT69els1hBrloO\n\
    y+en22n1f/n199+WvmCreAT/ygrWSTqWXwA6wHJYns+fXQgOy9vTq/9leTv98+n1fH5bvh824pWoFoZM\n\
    HHlF6P4xbMTxp/hfXy7X26e/358ut9PlQYVKwoWyCgRxfG6daFOB/qvghJLzNwUu0FL1uoJ0ct22Ueef\n\
    6i9P/3N8BTSqxo8L0BFkJeoonfnj9BX8bitoJo64onV1WZ2kr2EdxJpWqHF8rZ3rBH0lqFIAM3WyFdB9\n\
    2QUn6ZMRmcjjAhzeD2+S23+CPlNz6yf0Obzvp1fsMk2fmzSraQX3Pmonvr/fXfSlaCHM1euKrXPpulXf\n\
    S1+pcLGkOcjwPnb/0JsDfpS+Vv+TeUeG9/1h4fAOTtEviupyaYW2Qu3a3P6bCrvoG6EUTNqyhPdxeF/L\n\
    Rn0vfbNWoSQFNOiDBn3YFthDv3JF7w6ZOMLqtvTWwNP0G1g1SI8f9F1Y74+/i34zrY2Tu9Ujlehr4Aba\n\
    3u1O+gVGd0geV/HuFvZkHo/ro/R9YLEIWSrefoiLTdJ3Y7JfcTIXyxHdncXRd2oT9AtRQ6JkKJYj6bCm\n\
    deBJ+h5KiCmhbz7Z15jpXmOGvqcGp5+c3oI+OHrwxjxLX7BRrUnjtKDvZxfvndvGuYu+VFTLOo8dSWIo\n\
    uvps5yk+t1qRFBBjhCqV++vdQ79AAbHE+9X142rdOzrt/WKCmgXmekSNVOWJE2c6TzFmH+nJy6pHopjp\n\
    o8AkfXN3cjYYvUCLAuKNc9ua99CPsF9LEqjaCFQS9EVm6bvzFfIKKGEeH42wrbCLfvMfwJaqe6Jy94jH\n\
    nq36TvoG4lO3JU+3jYXC0depzGNIQAKPHxbCWOVqF8/Ls53HsJL6UpdViH2OI9PGtvVh+kbczLNDph67\n\
    nHShsU1M0WeIyfX4cUWB0RziF2zXuT302Qw0ibMYsWEkkja/65ovulrq496G8UUqodrBJvK++dhiTuZW\n\
    qNd4u6pjbs3kfVN/WyoJfYxQFYtuu1+m99B3bWjyuK3hWKQ9kQSe7a64m35p4JMxcefYpuN10dyua6b+\n\
    dpNtAscmHTO9jsQ5Rb+S88kBUfnxXzF3y/Qj+n9+/zcAAP//q5qgjm8SAAA=\n\
    "

/-- data.go:2166. -/
def compressed1982 : String :=
  "\n\
    H4sIAAAJbogA/5yXzYojRxCEX2Xp60qQv/X3Bj754L4ZH8SsDAsz0lrS4MOy7+6othlDS7m0CnQYGIis\n\
    /iorIvP7dH1/eTler1O7Xd6Pu+l4uZwvUzu9v77upsvx+u18uh6n9vv36fb17Xi9Hd6+TU1zKYVZaTd9\n\
    OdyOM/7zy2+/Tm3iWmRPvCedyZp5U/pM1Iim3fRy/gIh3k2nwxv+mP78ernePv31frjcjpfpx25VoZob\n\
    cQkr1Jlrc21aVhXk/wr4iE9v5/PpTr0QZfWUInVOs2jz2iSt1PVD/fXwk+MXykUShwXEOyBP+K0K0EeB\n\
    0/Hv4PRswin7Y/GuP7M1yc19kH4RIiUP6ONXZoJ8HqQvyQFHI3X2WajhAlQH6ataqpSjAqKzcGNvlAfo\n\
    a3VXrY/FFfqzSBfXOkrf3C2bhBVq54PXZTJC36XjsUid88y54Wc2SN9LrV4C+tp7n6nh9doI/WTFswe9\n\
    b733KTWquIDPxEP0M1NlDY5vvfcZzVPQ/qsKm+jnQpVqcLfWnYcV6JvLSn0r/WLGJbJm+6/3lRZr5mfp\n\
    V+LkxJG4Uj89lSY8Sr+mlLIEfHxxHu69L2s+W+hX0qy1Br7mnT66B5/AZYw+rjanGlmbd/qEd8tIrufp\n\
    V3an4gF9iNd+tTBmHaVfRSQLB96W8OveQP31jtCXKoksCMW0Z+uZjvP31B2ir+CDFxAVEASj9KGB1te7\n\
    hb7BFoqGp5fSeweZyOvTb6ZvmKtylOu508fTUlly/Xn6bimhQqQO+n1mQ6yP9n4ifEIKej/vhZaRDcEy\n\
    0vs4u7AFrgzx3MURvLJ25c30syJaJOBTYG99JlQ4z5rPJvoZtuMl6J6yZ+mtidyy0d5HLCpH5oACdSbt\n\
    xulrc9hCvwqpUchGUo90p/uHtZl+rYQLDnq/9o0CtozYusv1DfSNCAOncZAqdc9oTYQW1MdSF5sKs3gJ\n\
    UrcuQ5Uu1/t86kI8ZytR79dlmfDFNwd730j6yBl4G9Oyz2GmxdCw7s5N9LFKwDwfnx/qoI9IkYKhc5C+\n\
    psTkj52nF8h9aIC78fPOY2TqYulxZ0K806dO3wa3LSPHtuXy+OkyL/scTL9gbnh+3oe6F0/B2+3qS27Z\n\
    v293YN43SiKMD4gKYJ3DNtSbZw1oC/2EqaHa420F4n2chabfbyub6WOboMg4edmme3fKMlU9T78w3pYG\n\
    5+/R1eE4tsWxbQsFcuWaHo9svCzTfRtCNq7X0S30K9BQsAvxskiztWVdHKTPRJgbJKzQNwqsK3q/LD6k\n\
    /8ePfwIAAP//xZqG+NISAAA=\n\
    "

/-- data.go:2191. -/
def compressed1983 : String :=
  "\n\
    H4sIAAAJbogA/5yYz4ojNxDGX2Xpa2yof6qS9AY55ZC+hRyG2Q4szNgb20MOy757SlrYgOwKct8GBr6S\n\
    f/r0VVV/W64fr6/b9brU2+VjOyzb5XK+LPX08fZ2WC7b9ev5dN2W+se35fblfbveXt6/LlUQ1NgID8vn\n\
    l9u2+n9+/f23pS5YMh8Bj6ArSAWqgL8AVIDlsLyeP7sQH5bTy7v/sby9XG+f/v54udy2y/L9MBRA1lwk\n\
    RQVQVkgVSoU0FICfBU7bP5/ez+fTvTiBonKOxImaOHNNeRDHn+J/fbn83/FJBTJKWCGvRJW0Jhkq0H8V\n\
    /AqC8zOxMNNjdTqCrFgq5ppoJ30uIgLB8emIvLquA6Lx+DP0RRGYNRInWNEqU0XdSz9hFsYSVrAVHE6u\n\
    XPbQTxlENbAmN+8jV/8JMlpzlr4mxCIQFXDvd/UqsIO+oVjRwDvcvd+dCaN3pumbkWl0v9y9D5Ws3y8+\n\
    TT+zlVICa8oR0uqpwKW/LNxDv4DmTMHxpXvfY8d/wXj8GfpFzZACZ0rzvou7M6UM4rP0CcgYzMIK7n1/\n\
    XegG3UGfoCQhDayZOn2pIpVgH31CxaQQFkDq5tHu/WfpExFgLsHVunhZMbXcvHPmNH3KRAWCzpKOpC2Z\n\
    JVfKe+hzIkoSuEf9cbWu0tw5umeWvoebMAXRpkfE3hhzj7an6YvnAnFwtS5u7WrFc2G82mn6ic1K5H09\n\
    0o9soJp2eV8hk6Tg/Nbot9yX+/PP0lfNliwsgNAL+C/Y432jlKkEbKzRBx94sPLIZpq+FTaOZh7r9P3p\n\
    etcdk3mKflafGTI/Vs/e1lcXTR4+vJN+Ie8t0VDoBXrbakPV+HRn6BdvWn69kTimdrXufRnFZ+kzSMk5\n\
    B9mWj+Tu9KaO921rhj6jd3WwkD7jij41iM+E++gzWgKMABX3T7Mn+y/YQd/HZe9aEoq3ZaLNsvfi0/QZ\n\
    FAyD4Cx9qrIWnDwG5xR99qHNR+ZQvazkop6ce+m35+VT1cMCCH2kbfN4H5ifpi+FCIPTu7gPVC336f70\n\
    0/STegEJKxC2vpjSfTZM0VcStWCbaOqlW/PBNjFL32ONUjBxIrZ1ri2L3tnHhWiGvr8rwBScHttA5TOP\n\
    +Lo4nn6afkYrkh+/Lq/Q9jlqEyeN2/QU/WyWo12uqduK0PpW2ku/sOdmZM8fyzT1dYWfpy/gM4PC4+8k\n\
    Lt7oe0uH++8ks/TFU5k1erp9m+6fYfbtuoKMlNPjnt7UPRhy67o4fgiI6P/5/d8AAAD//7kinRtzEgAA\n\
    "

/-- data.go:2215. -/
def compressed1984 : String :=
  "\n\
    H4sIAAAJbogA/5yYT4sjNxDFv8rS19hQf6SSSt8gpxzSt5DDMOvAwvzZ2B5yWPa756lZNtB2BVnQh4Ex\n\
    r+Rfv6p68rfl8vH8fLpclnY9f5wOy+l8fj8v7e3j5eWwnE+Xr+9vl9PS/vi2XL+8ni7Xp9evS0uJPWcS\n\
    PSyfn66nFf/59ffflraw13QkPpKulBuXRvoLUSNaDsvz+2cI0WF5e3rFH8vb6Z9Pr+/vb8v3w05czCSX\n\
    Gokzr+QtedO6E+ef4n99OV+un/7+eDpfT+fbCipVSqawQl05NXyDTLsK8l8FEArOrzUnzjlSl7xS6ufn\n\
    vFPXn+ovT/93/JSlSLL7BQQ1VtGWShOboJ9F1UQicaZ+esiKzNLPVSzVwDyoUFYIJ26yN88QfUuUtAT0\n\
    5Si6wpcsLc/SL0ykFABS1Fi5NuWW9oBG6JfiLBY4Uzt9iEtpae/MYfpVzdC+YYWyMoT9ls8Q/eqmLClS\n\
    l7RSabnik5P03cyTBMOh99fK2vANBMOBH6SfSRXaJRT3PtYynFl24qP0MzkliWZDOnJehfrxO31+lH5m\n\
    DAb3YDCk7n2IijW1nfog/SyizFHr5k6/jzbbWvdh+lItefVQHFNZ+txMPktfMZxVAvq508f7Fbhzin4i\n\
    z26B9/NRtsEAOJQm6adStWjg/XxU6qMtVfTXBP2stbIE3jc8m7g0mvZ+9pqLBnzsyJjMuVfgPZ8h+maG\n\
    vR6qC3f34JmmX1QKW2AeFPDuffYme/OM0C8O80RLpeDtriI9kZDM0q8Z1k9B65ZOn7Rh+KR96w7Rd1Gy\n\
    wpE66PfDJ+zFSfpeTbPGBbbhkPGG9wUG6BsSQ6pRHqwYnZ2N4u3SJH1jqoVqWAGZlg3bbdvrD9M3Lo7Q\n\
    EPQu1H3dXuzt3hqkb6IYbJE961GsF8BiSXt7jtAXN6cosfkWqLgHKt431jB9NQSraG35lmkr7irbdeVx\n\
    +jAPtm4weXy7TVBTvZ1ro/STi3t02/IfF4o+2ia2rmWkBrTWXXGm7TKBxtLbRDJM34RxZ7mfSlCh0+/C\n\
    +OQMfaueo6XY1Us/PxaL7pfiKP2Cp9Tw+Ii0SJz9Rro//gj9SgWz4X7nQly3OEt169ypvG8VxncOKvCW\n\
    qrDX+219Iu8ji6O30v2xDHW2nve369xc3i9EjMx53/sogFDV7YkL18QvDYXQWoUD73MPVH0u8O1daJR+\n\
    Yc2sej/Tsmz0e9hv6hP0C3uRaCxDHXkWxv8xlqfoS7bEkXlki7TcE6fuzTNCXwVZPLgLQbzTx+nv/E4S\n\
    0v/z+78BAAD//1F8DXPREgAA\n\
    "

/-- data.go:2240. -/
def compressed1985 : String :=
  "\n\
    H4sIAAAJbogA/5yYT4sjRw/Gv8rS19cG/SlVSfUN3lMO6VvIYZh1YGHG3tgeclj2u0fqJBtot0K7mDkM\n\
    DEjlXz169JS/TbeP19fT7Tb1+/XjdJhO1+vlOvXzx9vbYbqebl8v59tp6r98m+5f3k+3+8v716mXxoZE\n\
    2g7T55f7afb//P/nn6Y+oakcAY/QZqCO2qH9D6ADTIfp9fLZC9FhOr+8+x/Tb97i0/vlcp6+H1bVi0BV\n\
    K1l15Jm4k3Ysq+r8o/rby+3+6fePl+v9dH1sIH76ipA1IIzjM3SEVQP40eB8+iM5vSi2Qikbshk4itOa\n\
    Df7L5sv1v45fSy1KvN2BjiAzSifvwCP0GxQGk6w60gyti9OXQfqtaq01oe8NbHbllOKfYIC+sklVzYpT\n\
    C+0UdPmM0jcAqxW3O/A/2vfj4wh9E2XGRD0c2sfWWTqu1bOTvgJJKZBcL4f2kXqUXl/vDvrqZKBBysa1\n\
    j7Uj+gUM0leUogqJeMqifR9dXsSDz9JXQlLXT1Y9tC+9eIO6qr6XPimRWDK65UgwQ/W57cirBnvosyBw\n\
    drVeXOP0JMvV4hD9Alo4m65oMrvtCHfQEfqluoCAsuqIYQyufaBB+sJarSTylHAeorjeGN2n6VcoVTJX\n\
    lnAe5C6yuPIYfXcdrWjbHaoP2Ayli68tG6HfiM03S1YdXZoWW6WMar9ZYeP0+Kgxur5YZH38PfRVGosl\n\
    2qlHcl+wUCautbObvrn1gCXHb75c4n5BB+mbunw0OX9b6GMX31uD2jco5pknkWcL+u7IUp3R8/QN3fg5\n\
    o9+Cvhdnv4BR+oY+uCBJJmxHxmV0/ROUAfpG3FgpcU7131BPZLa1c+6lz8CemhPj1CPW2beiuzOvjXMP\n\
    fa5RJ9mJeiQO32ePDeuduJt+oUJAaQeGGSPQeu0R+v7DBZLMY5GofLI8OJQ2SF/cHGoWGuyIy9oieDz+\n\
    HvoVS2yVrPjfgao8KnM3fV+LLv1Enba8KLywPe71XfSbeNpPjAFhybM1pPkQSfbSV0QquL1YvIHTD3ny\n\
    Y6jaQ1+rL666Td+Le6AiXNL4MH0fL7f+7dGNDrokcvPn7vN5XwCgGum2NBEjz4YudZHmQN73BlU4BYQR\n\
    aZe3iiv06bwvgJ4ZQBPtYASqkGXpZf0S3UnfO4Q38PZm8Q6Rqtz3edksz9OnSujXu119eUnH+b2BDdJn\n\
    tGqybW3412MaIhTK+jm3hz4riJS8+OILYo/fwuymXwRrS7YuLq9pcO37e2gtnk36v37/MwAA//8T52+5\n\
    cBIAAA==\n\
    "

/-- data.go:2265. -/
def compressed1986 : String :=
  "\n\
    H4sIAAAJbogA/5yXz4ocNxfFX8XU1l1w/0lX0ht8q2+R2oUsmnEFDDPdTncPWRi/e+4tJw5U1w2yoBYD\n\
    A+eqfzo6Ovo63d9fXtb7fWqP2/t6mtbb7Xqb2uX99fU03db7l+vlvk7t16/T4/Pben+c375MLUHCnJTk\n\
    NH06P9bF/vO/X/4/tQlryTPgDLxgbVKayEeABjCdppfrJxPi03Q5v9kf0+v5/vjwx/v59lhv07fTfoAK\n\
    F6FoAMKC1Ega0G4A/BhwWf/88Ha9Xp7Fs0lDTqG4LkQNpVHaieMP8d8/3/5r+QqFM4YTKC8mzNx4P4H+\n\
    nWBbEKxfFZglUCf7FpAm9Lz+XvqFquRSwgHVl59KgzJAv9SsKhiJY3bvpNQER+nXLCgl5EOyYGqOaIQ+\n\
    AnFmqcfqvHnf3FMb1DH6CCWB4Y8GuPelJbPnAH3EJFpzQN/Ey4K5cW00Sh8JK1B0dHnzPjv9p6PbRZ80\n\
    a0U4Vhc7XAvZyUJzwUfAEfosiIY/HGDe14bQJO8G9NA37YKRd8STB9FCoUndiXfTF2UoGk5w73MTbWk/\n\
    oYt+YrAfEMBJTt82lizX9nB66adqwQ/B0bUBZTF1Y+RH96fp56wpU+D95PSBTHPz/hh9pWwWDeinmXgh\n\
    X3ujIfpaBDUF3k8zg++tJeew90viXFGPB9inW3Da4dIB+pXILpZga/OMyVfv9Pdb202/arVWwtEE+ude\n\
    BB6gT8AVRIJYNnULBvRY9ktxhD6hXVzIgXnU6UPy7eW9eTrokxknlRSkss4o7kyLtUSD9ImYskSdUGdC\n\
    zzax/ZUR+tZISqnh+un7vSXP6++lz9mKgwTeL3a+vJZ4NA94367DwpqCrS0zst+JVjqftrabvpSMmcPl\n\
    Y91aFT8f3S76yZNZguQpM5k1q7cGGEweygRop/d4QLWbawGrm94LB+jnAp5skTiii1su4P7W6qavAinF\n\
    y7dWBdn7Pu6X30Xfll9yrO6NShqWZ/Ve+kXFOvNxtCH8/Zw7irYe+tXeKrUe0zfx73WWTH+YvqlDDV5b\n\
    PkG9E1q8PZmnhz5DzkzpuDWYOiWvJKRWOsfosxUGm3J8bSFuz7nst67wz/d9xpILB6ns4mXLfbsT9y/1\n\
    XvrGhhQ1nODvOfIJaT+hiz4TWy8J6OPWZ7PnGuzfK730uXBlDbxPXmltgIVDGnhtsYhtbj7OfRcvW6zR\n\
    1vfH6NtzETSiv72m7bli/sEh+kmrHa7AmttL2jLZsoH21ozo//btrwAAAP//H94k83MSAAA=\n\
    "

/-- data.go:2289. -/
def compressed1987 : String :=
  "\n\
    H4sIAAAJbogA/5yYzYojVwyFX2WobVwg6Uq6P2+QVRapXcii6XFgoNue2G6yGObdc24xTKBshfLdDUxz\n\
    JH86Vz/1bbp+vL4er9ep3S4fx8N0vFzOl6mdPt7eDtPleP16Pl2PU/vj23T78n683l7ev07NktdMVegw\n\
    fX65HRf8z6+//za1iWvJM/FMvoi0ZE3oF6JGNB2m1/NnCPFhOr284x/TX18u19unvz9eLrfjZfp+2ETI\n\
    nj0liSKwLYQI0lg2EeS/CPgRn97P59O9ekmmJClSF+n5a26UNurpp/rby/+lX6q4xoCkLpzWAFtA9DPA\n\
    6fhPkH1F8mr6WFxmsoUd6JvpIH2w0ZJKGIHT0uVr022EPfSVSnWRUF14odIMcLbqO+kraxbioLwIUBbo\n\
    WmppW94d9FWY3Ss/Fk8z5YW5WWnMo/SlMPhbFAHeh3lYm9oI/QR9i9yTuve7e/C4RunDPaQ1TP+H9wEI\n\
    6fOz9NUruk99LK6988A7XbxuxHfTR3ezWgLz6My6UHfO2hv4afpWzZKG+Qstgtpa023+e+m7ZeEapt+9\n\
    j9r66v2n6WdxT1FpbaWfmkB8W9rd9HOlkilI33rngXmMmw7RL1o45+DtWqdP1sDHeJB+ZfFSg8eFALk/\n\
    Ljzd3pqfpg9XsnAwVBzVXbiubY0G6RupSuh9n5kXAfo6Rt+YWCx7qF4WlpW+j9E39qLiQXl9FtgT3sxN\n\
    t+XdQd8kFafI+/1tLVTRNPGXo/SlZilUogigT9o7j5QR+gl8VHOonnttOTfJg/RVFIgC7+dZrAfo9Ae8\n\
    D/Mn8hKUtmCq941E9L60u+nD/Xi7gfcRofa5zmWs75szUbYwf/buHrHhzmNeSDMFj6vMov1xYS2R7ePa\n\
    Qz+ru9bAOxUbbXdmn7pb7+ymXyh5LsFcrOtWVRtaP23n4i76xZ0tBbWt6zVBWKfuh+Je+lhKtHgISFIH\n\
    RPD+FtAe+rVWsAluoTon6s5M6MoySN/JcknpcfpMnT7mIvxzV9899J0Fl1zQeaDO69yi8c7jXAUr5+PB\n\
    iAB9pYXx83qOPkvfxcSi0nZx9IWMZR8/YHDfd0z1ysHYYv5xz6k32l4Uu+gnXBPYeyL1vlHh7cL+ZWzf\n\
    dwwVzcFBgQD9nPN+qt8dFHvoG1mR+tj7XXw95VK5/w6wmz46Z43uOV6vaVwUsE0aoo91GRfj47bM6yXN\n\
    fZnFRj5IP5MkTo/XEgTAStu9b+tK/jT9bDXn4DNGF0dXpr6x3X3GCOn/+f3fAAAA//86T4h6dBIAAA==\n\
    "

/-- data.go:2313. -/
def compressed1988 : String :=
  "\n\
    H4sIAAAJbogA/5yYzaocNxCFX8X01tNQPypJpTfIKov0LmRxsSdguD/OzFyyMH73HLXBgZ6upEfQiwsX\n\
    6hSfSqeO5tt0ff/06Xy9Tu12eT+fpvPl8naZ2uv78/NpupyvX99er+ep/f5tun15OV9vTy9fp2a5itVa\n\
    7DR9frqdF/znl99+ndrEXutMPFNaiFvixvaRqBFNp+nT22cUktP0+vSCP6Y/IfHh5e3tdfp+2lb37KYe\n\
    VWdZqDSypr6prj+rPz9dbx/+en+63M6XewGHRmIOBXxBdcnNeCNAPwVez3/vd1+IU6Ycdi+2CDdLTbbd\n\
    879svlz+o/1CVdWS7isIvkWomTTRAfqFTcU0OFuZmRbRRnJ/tgfpF2HmEg0PBMrChkO6FzhCXwoBjkTF\n\
    JS3cWweeUfqaqLKkfQXFt3DufCiN0O/FiWtUnXlh6nCsDtJP2TS8uhCoy9p70xH6JrmyhWww+6icpOmW\n\
    zWH65iVzLfsKqc8++PQBLR9hQY/Sz5lzzTms7v1m4fpS3lQ/Sr8wnE2D8Uwz54V/XC7ZCByhX6oW9+Bo\n\
    0yzab67qerF4iH5F8+pB+9bp41iT3rd/iL5zSuyBLVunT93UGvMgfS9azILjtZmtA4I/6PZ4D9CvlMjV\n\
    KSoO+lxa8mY0SB/GUFwjZ7ZZ4Q3YLLZe3YfpV865lBQ4T56p9K0rOIA6Rr+KVHEJ6OeZU7+63BfvAH3x\n\
    AoHAefIs0tngdFMapa+rNwSzD4XVGxKOeGT2EUdcpAQ7vUCg7y0tzXSQfqpYXCmIJWVmmIP0WEI+QN8M\n\
    e8vD7kGfcLHSffeH6Wc2Ig2Gp3T62CxSGm+H5xD9XAT0g9nv5rmwN8FSHJ39AtdUCgUQaeH7isy8FThC\n\
    v5KbaeA8dRbqiQR5kIedpyLx5xQ4DxTK6jywhyHngSmwR9W9Jyqcbc+z2+pH6WMpZlhEJIBQhbwPa767\n\
    ugfoO+UkKkEi8fUxkRpXWMMgfWfhggmNFPqLAmGqrJn2YfrOlVPx/ZvFtCYqlMbeGsw8LiYaZR4I9AeF\n\
    YPDv2z9CX7lKrfuZoRevC2wHZWWbGQ7TR2QoaqHCj0yrdv9YPEQ/aRXN+8bAeEmveZ9lNYaRvO9GtWrd\n\
    N4cu4B0Q3C3R43nf8Vp0TcHscI+zCMtgk/Jg3vespPDnSKGnKqDXNZE/Tj97hvEH1aXTJzgnrZFkiH7J\n\
    qXo0PLJGWtsdniP0q2DtBokExUG/2xqmfvSti0LIhbq/16EA+v2Hkrru9f+n/8f3fwIAAP//uJt8HnAS\n\
    AAA=\n\
    "

/-- data.go:2338. -/
def compressed1989 : String :=
  "\n\
    H4sIAAAJbogA/5yXz6ojNxPFX2Xo7WdD/ZVUeoNvlUV6F7IwdxwYuNee2L5kMcy756gnTKDdCn0FvTAY\n\
    Tomfjk5VfZvu7y8v5/t9qo/b+/kwnW+3622ql/fX18N0O9+/Xi/381R/+zY9vryd74/T29epJiIhY9PD\n\
    9Pn0OM/45/+//jLViaPEkfhIeeaoIlX0f0SVaDpML9fPEKLDdDm94cd0Of/16e16vUzfD2vxXMJT7omz\n\
    zazVoZ9X4vxT/I8vt/vj05/vp9vjfHuuwCaclHoVhGfhqihCqwrybwUQ6pxfWEpE6akrzSSVtHJZqetP\n\
    9dfTfx1fsmtJabuAHCnNlKvmammAvqoUT9YTZ5kFR0+VbJS+RnAY9yoIzexVYR4eoW8pIpfO3UK9zALR\n\
    qLa+2730XaLAo9sFdPF+qa3G2p576HvJ6ho98eZ9qiyVY5R+8qTR874eRWbA8TLo/SyePHfV4X3mFgxN\n\
    nUfo56IJjLYL2OJ9q4pPVwX20C8muIKuOOsMJGyV1+K76QcrZ+pWQPLg+LA/rSvsoh85IkkneWzxPlfL\n\
    lcoYfSbNwj3vO74Z3rSyRPNH6TNFQbZJTxzJAzB4WCKD9JlTsFOHjy/JE7W93jWfPfRZVFm1k5ze6BMu\n\
    Fm/XBulLUCrRKZDwvlq0ueEboK/u7Nahn47Mramg69IwfROTnDrZhgrxTwWJEfpW3M061kxHSUtyEuw/\n\
    SB/qLt5pW7nRJ3RFXAAP0Ic3w63jzLzQZ4T+88vdTT/lguDpHp9La1umz8ffRT9rToU77slHQTC0TEZb\n\
    H6SPZKPCvl2gYK6aGbmWqvsA/ZJKitRhA/FYWnosE8kY/VBJcE+vAueW+4QLWB9/F32wofCuumjLNZOq\n\
    a/Wd9IXc3LUzcZajcvO+YWpLH6ePcdmxS3S80/Tby3V69s5e+oILxlTV6bpx5KVtuTz39T30RUzVqZNr\n\
    sUxUmJjReNe5tpe+MpWSO/ZEgZgxUaGtjySPaGHG/W6KMzX60HStsvbObvpmRFq2kxkVMNP+2LZoncy7\n\
    6BuGHuHtpgh1TFRIHqHhrouBFutE7heIZSzJS9f96LwvSZP15kHmNs62cRPeWS/Su+mn0G5nQYU203rz\n\
    vqy30V30sxvW0e23C3VMVMg1s+XtjmxbUnDB0lnnWoHS1hXDTrFeV/bQL4FhNnfY/FikoZyeN/Xd9MOK\n\
    mm1nAy/bNFZppSUbPkxfidkQ/V31aLu6Y+gc3HUVLbcYbycPL8s0oq09rvWqvkX/9+9/BwAA//+6CkOp\n\
    bxIAAA==\n\
    "

/-- data.go:2363. -/
def compressed1990 : String :=
  "\n\
    H4sIAAAJbogA/5yYz2okRwzGX2Xpa9wgqaSqUr1BTjlkbiEH453Agv9sZsbksOy756s22UC5tZQb+2Aw\n\
    luSfvvokzbfl+vrwcL5el3a7vJ7vlvPl8nJZ2vPr4+Pdcjlfv748X89L++PbcvvydL7e7p++Li0nVvWc\n\
    +W75fH87n/CbX3//bWkLu9NKvJKemJpyI/6FqBEtd8vDy2cEwp883z/hh+WvL5fr7dPfr/eX2/myfL8b\n\
    MgilVM2jDMwn0malJR8yyP8Z8E98enp5ed6Jnr2olzB6PQk3ro3LED39iP54/7PyUTxny1ECySf2JtQs\n\
    DwnoR4Ln8z9B9clryhRUL/g+ofSUmozVT9NXc/KqYQbv5XNuokfom1SyiL6sXHr96mjvQfrmKbMF8pRV\n\
    7ES1mTUb5TlDPxvnVGk/eOraJ2kENnSUfmHDC7MoA7SP12XeyI7QL9UKew2jo7fa1cP1IP2qlYkC+qlr\n\
    vwufNnPgj9J3MnYO6OumfW5ijWkIPk3fCxfTwHl0ZerOA/mTDxlm6CupiHjQW+3OA2l2a7Mh+iR9ZeJS\n\
    Ulh+1741gfzH8ifoK+NlkQfBDc72n2+OwWfpg05lrYE3WHceiCfx5m0fpy9eYA6Br1l3HkTX3JIepJ+g\n\
    nBJZs62CwShN6/vyZ+gr40tSFDxhJsKVqUk6Sl8rEFEwtvJKtZeP2JqP0DdjLhLQzyvnLk3A0aP0M1Vy\n\
    DcwhryJ9bMH3dTSHGfoZO4NErUVwKDN139extdP0ixKJBf0tnT4mi8B8xv5O0a+EvSEHb7esbFtvtcn4\n\
    dmfpV8zc0NpKp0+p2Y61zdB3yURZwuCYWtaVSXKUvruJcsCnosU9A+zhnbfN0DeyjJcV9LaunE5YpyBN\n\
    Gns7SR9Py+BswVivq9CJE7blRvXj9I2r1JqD1iL4NrUStDO2dpY+0LtzJB6HvXXtd2ceM0zRT1RhboHz\n\
    eN+oMLcgTTroPJYK9pLocXlfqjbXfL80zNBXJRhnYGu+SukPC85zeOcxI8XWsM+HabvnkEGA6Ah9gzF4\n\
    3q8f0d9uuSTvbXmWfhasJoF4eoLaH1faEc8M/W77lfadB8H7Oot1BL5/1HmsWBUr+1OXue+0yIB7KI3H\n\
    4hT9CmOogfP06L71Nm1bw5F932pNUmjfeZAASxX1W2Vzno9eW+aWagk2EgTHOovq+W0jOXRtZWJRKfvn\n\
    Cm/XNBVcikhygD7OdAKeOLpv1yIGyxh9kn5mpVKCD0p4O6b7TJf3H5RM0M+CdcoDW+O3Qzr1zwFoDB7S\n\
    //P7vwEAAP//E2LvDXQSAAA=\n\
    "

/-- data.go:2388. -/
def compressed1991 : String :=
  "\n\
    H4sIAAAJbogA/5yXQWskRwyF/8rS150BSaUqqeof5JRD+hZyGLwdWLBnNjNjclj2v+dV42ygPQrtMj4Y\n\
    DE/VX72Snr5Pt9enp+V2m9r9+rocpuV6vVyndn59fj5M1+X27XK+LVP7/ft0//qy3O6nl29TKyWJJWU5\n\
    TF9O92XGf3757depTVwrHwm/NrO3VFqWz0SNaDpMT5cvEEqH6Xx6wR/T8+l2//TX6+l6X67Tj8O2QPWk\n\
    SlEBzrOklqkpbQrQzwLn5e9PL5fL+b24FqVMHolLmlmbcFPfiPNP8T+/Xv/v+Fk4ewr5JJqpNKaWtnzk\n\
    vwq4guD82dW1lMfqcqQyM+DgE8og/ZKzOGlUgHVmayk10QH6xmbMobjwLNIy7LMV303fDB9AIR/x7k7J\n\
    jbZ8dtF3FfCvj9XTkaCOi9WmdZB+ZfyUsACXmbyxvC+wh341com8n7r34UzC1Y563yixaXz87n1r8M+7\n\
    4++hb0xU3PJjde2dB+pqLefPxAP0jUu2asHT1e59wfXW9enyB+mbSLJsgfe1ex8vt4vrRnw3fXGTlOIK\n\
    PqOx4XXlbYVd9FM2k8qP1fNKv7fNxjxIX7micaaoAOhTbgn+SQP01WCdGng/H4X61WppyUfpZ01UJHBn\n\
    XjuP9OPT1p276BdO2T04f0GBmXF4Xt/uEP1uH5WgcZYjS7cn3ldvnB+mb4myUPCwIF771eICaPuwdtM3\n\
    SGUN+QjciblYG2357KLvxUUsgGOdflfnxls4e+lXyVU48L4dmbs90Z3ziPera/Viobh37zBkbZC+E0KD\n\
    cdD37ShIJbVPXa4D9J2F3Sy4W8dg6S9L8AmD3ne2yhKNdT8yzetUbLQ9/g76LgickgPvQ9zWqUtrXh6j\n\
    n5AZUhTZ/Ci5pxLkBhnp+55MK0VTpSLS9rvFTOet+l76io2i5IB+XUOVrIBG6CvmOVmwTNS3ZQKyTKP0\n\
    MyIzbjmqgFSFCorOvL3fXfSLGFLVYzhMnT5EU08lg/QxFjkKzL2A9UiefF0oPkwfQ9Fq4B2Ig37fFeW9\n\
    d3bTd+HCQWdGBVl7AyFVbY+/i747YS4+7pxQf8uzsnbOkbzvVQUbXQCI13Wue7PpwLZVicWizgPxvsrp\n\
    v51nKO9XsoLM8DjzoMLbPodQngfyfuWkbMHL6upoDEgNaU0NI/RrV3J+PFh4Xab7WMfU3S5Ee+hL34aC\n\
    mcjrIt1tyWtbG6OfoE85PH7fKAhNf52LH6ef3LNSeH7Qx4MCnN277h8//gkAAP//rHm8C3MSAAA=\n\
    "

/-- data.go:2412. -/
def compressed1992 : String :=
  "\n\
    H4sIAAAJbogA/5yXzWojRxSFX2Xo7Uhwf+vvDbLKIr0LWRiPAgO2NZFkshjm3XOqExxo9R1KDV4YDOeW\n\
    vzp97qnv0/X9+fl0vU7tdnk/HabT5XK+TO3t/eXlMF1O12/nt+tpar9/n25fX0/X29Prt6mlap5SUjlM\n\
    X55upxl/+eW3X6c2ca1yJD6SzaKNqal8JmpE02F6Pn+BEB2mt6dX/DK9nf7+9Ho+v00/Ditxl1SrcSTO\n\
    OpNAuQmvxPlD/M+vl+vt01/vT5fb6bIxoXhyTeGEOgs3Kc3TaoL8PwGEgvMn05rFInVJM3tXN1up64f6\n\
    y9PPjp/ZNGkACD86c4Vu0zWgEfq5iJUSijPPnBpbs930ixGJB+bBhDJTaWSN1+YZol+JLFmoLj5Tbp6b\n\
    rNVH6QO/G9ftAdq9z9pgf60P089EmnK2HImzLN73ZnkffUyoJikHfLTT59IYiHbQz8SeM2WN1OH9fn5u\n\
    rLvoZxLJWatvD7DufUqNED7+mfhR+gLzaAm+XDsyzQzN1MRW4sP01YpnD5IHE/JMuFwgSqsJQ/SNnZOF\n\
    6oJYlmbUbK0+St+KlOzB9Tq+r24e8+a6g77DmJJKKF578pghOvfST6TCOTCPHxnJnBsM6mvzDNHHVyVh\n\
    cnqnj/P7v8m5i37WzJSC603YLTNSE9F2d70j9HN1ohKwgXjuO9EQzGs2w/SLFy0aTmDv3nesrV30K5zJ\n\
    8fkFwVARO/fnH6WPzZKyBeGQjko99/viXYfDAH0mQ25W2hbPnT4yDd532kmfmY1KCtyZj4xsQCDne3eO\n\
    0GcuplKCrZKPIkshhPdlH30W017awgG1H1/T/fWO0Fdiwbe1LV7w8fbc97oUqn30FasxR42z9E7LH43z\n\
    cfoonLjdwJrlKLzsLb3fW6P0raIYpiD3MaAs9sRu2ZH77O61aiBe+0rvbarcL5Vh+lgrphRUtrq0Kriz\n\
    NKl76KeqYlHnqctrgnru6/r8o/SzE243uN66PCh4Wet7kqewsAU7kWl5THiD/l2hGqZfiqRUtjstJvQX\n\
    RU/NpdM+Tr9ayrVut4auXvtW6cm8bg2D9AXvCZeAPgbgQdGTx5bcf7TvC+Exita2Lc69UPWtRQv9XX1f\n\
    WEtW2nYnJqDTYkJf7etGPkJfQIdMtvdWV8//WVNoX98X8YqnbggIpaoD4qWyPUxf8ZggDk4vC328ddOy\n\
    dffR12rmHHi/f7092wzHX7/nhuibK/6F8Py9z9a+dXUvfcd7Ds/1aECn32MH0gP0//jxTwAAAP//VNup\n\
    /W8SAAA=\n\
    "

/-- data.go:2437. -/
def compressed1993 : String :=
  "\n\
    H4sIAAAJbogA/5yYzaobRxCFX8XMNhLUb/+9QVZZZHYhC3GtgOFeyZF0ycL43XN6TBwYTZlxwywMhjql\n\
    r6tPnb5fpvv7y8v5fp/a4/Z+Pkzn2+16m9rl/fX1MN3O98/Xy/08tT++TI9Pb+f74/T2eWpZvHj1ZIfp\n\
    4+lxnvE/v/7+29QmrlWPxPhm0qa1if1C1Iimw/Ry/YhCfJgupzf8Y/rr0+3++PD3++n2ON+mr4eVQrKa\n\
    UqVQocwsTUtjWinI/wr4ER/ertfLc/VMmTyH/bPPZI2k+bp//V799fSj9jM+idsXmbk02Wifvgtczv8E\n\
    3RfThB8QFVeaRZvwc/Hd9CuZ1EhBjpS6gqdB+jWxWy1RddaZrTnglDH6SlJrLRoJCM+sjVIT/Xn6ykRU\n\
    LOi+H8DM3izjdAfpK3vRWlOoUGaqzVLTNEBfhXGvvEbVv80+Z1zfQfpSMtUYkOhMuXVGa0B76Ks7E4fF\n\
    Fc7jGMtldniIvrFwUdlWsD77DPoYf1kp7KJvGP/qQf/WZ1+oO+dT/3vpO8xBJGwfzgPoTk3W7e+hn6h0\n\
    8w+L136xDPWH6afkVSxvK3inj+lUmHMeoQ/4njTwfV+cB86JA7BB+hmVJAVX1xfncfSO2ztAvyRW5eBo\n\
    Ubz0yYTvP03mbvqVa6kR/YQj7s6MvShD9GsBew9sOR0ZowlTg/PoGH0jx+WlAFA6Cs19p+vQ7BuzWjIO\n\
    iy870YCHB+kbZ1PWQCF3+ri65k3XCnvom6A45QBOPjIvOx2pYQ1nL32lAgEPBWqPbILb6wP0NXlmDxJJ\n\
    7vThC+JwtlH6SDzd+7cVCnJD94a+WUZ83wwLnTnovxyZZk7L3V33v5e+I1TlaDFCIPfFgsSpa2veQz9x\n\
    SVLC4gJf6KbfaNT3LRXH+ATeUP97UeizN+yin92RmOPqtUcSyfCGQfqFrVIUGuqRl/EEIx1xHuxcGGfg\n\
    yrWv9L6yNlx5N/1q7BIF5tpfFNgsbog9A/SdmEoNEidTz7O9f9zdOkbfKRU8F7cBQQCRtj8W03No2EHf\n\
    WTKW4vZKR/EeqGr3TV2v9L30HUsXsXA7lUCh01/eurZ+je6iLwlbMYKDl3Retu43OCN531XwWi/bsw+B\n\
    Hmm5RzaTn8/7rkCD2BkVR6DCSsdno29dN3fLtL22ukJd+DAW7wh9HC4y5/ZO5+Ul3V9CyPs8SN8zDCIF\n\
    9JfHNMYT1jZEPxmcJ/gzBoojUAlsB3iG6WdGsbrtPF2h9FTSD2D9VN+k/+fXfwMAAP///+4gMtISAAA=\n\
    "

/-- data.go:2461. -/
def compressed1994 : String :=
  "\n\
    H4sIAAAJbogA/6SYzYojRwzHX2Xpa9ygr/pQvUFOOaRvIQcz68DCjL2xPeSw7LtH6iUTKLdCuTP4YBj4\n\
    S/yk+kvyt+n2/vJyut2mdr++nw7T6Xq9XKd2fn99PUzX0+3r5Xw7Te23b9P9y9vpdj++fZ1aSaVQhVIO\n\
    0+fj/bTYf37+9ZepTagqM+AMaQFogA3LT/4FpsP0cvlsQnyYzsc3+zK9Hm/3T3++H6/303X6fugCVCZV\n\
    oCgA4kLcEJtQFwA+ApxPf316u1zOj+IKiFQgFNeFoFFpCTpx/BD/48v1v9LXXArkHEWgsiA3kka5i0D/\n\
    RrASbOefgTJVkW11moEXqA2KBdhHP0NVKBAAohlhQWls9HtAA/QzJuWCGIrXBUuTavo76WciSgIpikB5\n\
    8dbMTdIe+tb5ABq0Js8gi0knaalvzVH6LCmpchQAabHaQm7MO+gL5lQ4oM8zWWmpYfof9KVk+wu8gdfe\n\
    J3+6YN6AT9NPLFiKbqvL2vvcUm6onfoofXtdnDigL+483jy1Je4CjNDPhUijhyXuPJY9J5PtxIfpFwbG\n\
    HEag5N4m+THCEP1SqxIFtU32uBZvHW7S13aUfk1Vcw3op9V5zNrss4e+krWPhtm781jq2lKf/TB9rWZt\n\
    JUzf6IMZp65P92n6BURYOKhttsGygLUOr3NrD31z5QSSgrFlAaw91Qcj5+fpGxfNSYOplWfM3pn2cll2\n\
    0i/kc6WE6RO78zBZkD30GUBKCmqbZwbP39QfajtKnwuw1KC8ZYa6kKnXx6c7Ql+YECNbK04fzJXt02c/\n\
    TF8UKkpAv8xEC6FPFtlFP6VCGC2Exen72/2xEO6in0kUKRiM1WJ470tqhDvo5yqsEEytOqMsNs9TbdRP\n\
    rWH6RZItVmH6hL40mO9zn/4QfSssJaihuq7qRr/upF9LVbOH7QDqBwWqPy5f2Z6mr5y1cJC9+kLlvmCD\n\
    q89+lL5vhFKj5tH1onDhx+YZoW+XFmJNoTpVX0nsmsBefZB+Rbu2GLedB2E952yfTQ13OE9FtY1EQnE/\n\
    5cDWtf07T6WUFXH7dXkEdW+wvYH71zVEn8lWcgrz9302r8bQH0Oj9Ll6ewbpo6+0uC6Fnv6z+76diTZS\n\
    NMgefaEy57Frbveta40pVuLtrcoj1H+8rf8tYIh+qmxDcdsYTN1vOTuG5PGWG6VvFxFJ2V5LkHylJfZz\n\
    jvtjeoS+HdGFYHvquvgPX7D26U+5Yfq+V2EcwemT9z71EYboW2+SBM5p6rTashUA6yD937//HQAA//83\n\
    3zffcxIAAA==\n\
    "

/-- data.go:2486. -/
def compressed1995 : String :=
  "\n\
    H4sIAAAJbogA/5yYz4ojRwzGX2Xpa8agP6Uqqd4gpxzSt5CDmXVgYcbe2B5yWPbdI7XDBtpWUm7ow8Bg\n\
    Sf0r1adP/W26fLy+Hi6XqV/PH4eX6XA+n85TP368vb1M58Pl6+l4OUz9t2/T9cv74XLdv3+delM1aYrw\n\
    Mn3eXw+z/+fnX3+Z+oRmsgP0Z0boUrvATwAdYHqZXk+fPZD/5Lh/9z+m4+GvT++n03H6/rIKbqIAYGlw\n\
    nVF6qb3YKjj+CP7Hl/Pl+unPj/35ejjfZTAgVWiSZcA6E3RqXWSVgf7N4IQe129gxEKaRacyQ+mivegq\n\
    Ov+I/rb/r/JRoGIrWQKGmcjpdC7P0zfCipXr4+C0gzYjdWE/3a30Sb1+5iwDSmTA1pG30OciStqy6EQz\n\
    cvcDKG0j/QKiYkkCXnofg76sE4zQL60UAEyDW1wsfwHCrfSlANeSlo9tBozep3X5Q/TF1EpNep93xHGz\n\
    nA9s7f1aUTQvn3EG7s4ojhefpd8YjTHpzBLKA7WzLJ2Jm+jHCTdNrm5Zet+703opqwxD9FUIWk3glOh9\n\
    b3y05WxxC33D1sAS3fcE3p7aWf0ANtA3VQZJdF9CeULW4gW20fepUrQIJ7ovOywz+dXVRfefpa+AINVD\n\
    ZdEJQ9fYG2hd/xh9T9DYWjYYZaHvY0s7rRP8P30FKly4JspT/QlZo9oBt9JnwEqYaEPdIc8g3W8v6xb6\n\
    LGZkaf1oM/nNws7r+kfpFwaoJS2fNIRTYBnrT9Mv1nxuJZ3Z/HSjM50NrDtzmL5I8cGeZkD6Z2zRpt53\n\
    VSbChH4L+jHTQ/o30q8qrhBp+eS2pMZgxHX5I/SbGxKiRDfVlW3RzdZhrZvD9D2HCqcZEGaXZbe1vM4w\n\
    RF9bWMLEs3l0jfr9obqRvhXEImkCqnF1GRZT+Cx9BGCqLZE1c9MWsubV3+nmKH0Mu9wyT2jhqiJ8vZ+L\n\
    I/QR3dAqJq1pyzZx6/11aw7SRzS/uZnft1govDelLH7/afok7pfL4+oRFjsbbXmvC8P02Yt3Y5Jm0Li6\n\
    Qh57C33WClofw/HoTh/DzN47qlH6RcCywegJbusc3wbjk37fu8bvriUj3YPHKocdbyN9i9/3DM2X3WQu\n\
    IoarAudzm4vP+n3FWliapNHDz/pUofvoo/QbSLGaAMJlnZNIcPcxYIR+q1QlceMR3MLv082Nb6OvZF79\n\
    Y+HEZZuObcsN83qbHqJvEJYzqX/ZpEOW+f5DwCj9ZZ/TxwsRLss0UA9ftV7VB+iT+9lWOdEFCkPlM9Gb\n\
    E9cfkVL6v3//OwAA//8md+6H0RIAAA==\n\
    "

/-- data.go:2511. -/
def compressed1996 : String :=
  "\n\
    H4sIAAAJbogA/5yYzYocRxCEX0X01dOQv/X3Bj754L4ZHxZpDIL9kWdm8UHo3R3VNjLUTJpSgw6Chczc\n\
    r6IjI/frcn3/+PF8vS7tdnk/n5bz5fJ2Wdrr+/Pzabmcr1/eXq/npf32dbl9fjlfb08vX5ZWhEp2Fj0t\n\
    n55u5w0/+fnXX5a2cK1pJV7JN6Hm0kh/ImpEy2n5+PYJheS0vD694D/LH2jx4eXt7XX5dhqqsyev1aLq\n\
    rL26paY2VNfv1Z+frrcPf74/XW7ny30DYRPlHDUQ2liac/M8NKDvDV7PfwXTSzYWSmHxvDE31iZpKM7/\n\
    sfl8+b/x1ay68OMOspJt7M1LMz5C3xh0CkXVWTYqTQvqHqRvqSS1cHwum2hTaTKOP0PflbVSoB1ZJW3k\n\
    /Wlt1M40/USciwd8tGufahNrPPKZop+SU9VAmtrpc254Xh2lOUs/i4ppIE80qBvj40KPUZ4z9HOpJF6i\n\
    4tA+cVNYQzlKv3hOboHzWNc+OuABuvPwD9OvnKuWGlVn3jC2piZ1qD5Lv+bClgNAaJC79iFPLkODCfpK\n\
    lgwPEBUXuDKE3x9gKD5LX5nFRILxHU+8Gyc1GcefoQ9Hxm+QA+37yrRRamS79o/QV1HVzIE5eKeP8a3s\n\
    i+WH6SupphIo0zt9fLZszUZlTtPXlIQj+n257O8L3z9Ev6/EWgP6+Fc6HDzAYfpWIM4Ujs+wZkH1+/Fn\n\
    6LtX+H5AP61iXTvi974wTT9xVTR53CF3+pCm1+ZHnEcTbC2nwJZRHdJEacg/HaSfzbJmiRqw74slNZYD\n\
    9GFq8IXAN/Mq8IWy+8Lom9P0C/YWUSCevCr1VAVnPqb9qgTrDyJJgYB29QAOH6NvhNkpB9ZcVrY9VNm9\n\
    NU/QN3xUTh7QL6vItptm06P0EWjdcpTI0aHs76uwtwP0jUsy0mD+2nc68j5BnQe3romnmiz4uGo/KGhv\n\
    IOPHNUNfBfNzOP0/x0RPtIfpa67IhXEHpKo9NNDYYYq+mVK2x8bAtF8T2hCabTSGWfq4FGsKAjMa9Ei7\n\
    L0Y+on3PVrx6WLx230QedD9KPykWSxDZ0AEXRR//QWSbop+JsvvjrcLcExV0iUtax0t6ln6GOcD7owa8\n\
    ry38BncH0Qx9JP6+dsPi5d807uMtNE0fmcEpuOfQAamqj4/a4/hT9KuXGmU2lp0+IkO5/zvGJH0nUVjP\n\
    41CFBoi0WLl9rR/4S4NTYWcOtC89zgK98q79Q/SdLUGfj40THWR3ZlwUd8fiQ/q/f/s7AAD///vXoT1w\n\
    EgAA\n\
    "

/-- data.go:2536. -/
def compressed1997 : String :=
  "\n\
    H4sIAAAJbogA/6SYzYpjNxCFX2W42/hC/Ukl6Q2yyiJ3F7JoehwY6LYntpsshnn3VCnNBK5dQa3sDIZT\n\
    8qejU1X+tlzfnp+P1+vSbpe342E5Xi7ny9JOby8vh+VyvH49n67Hpf32bbl9eT1eb0+vX5dWEmGuGfSw\n\
    fH66HTf75udff1nagrXqCrgCbYBNchP9CaABLIfl+fzZhPiwnJ5e7cPy8nS9ffrz7elyO16W74d9AS1c\n\
    cw0L1A2kUW5QdwXgR4HT8a9Pr+fz6V6cOZWUwtNj2sg0qfH+9PhD/I8vl/86vgATZYwqEG+YGmID3FWg\n\
    fyvYFQTnFzU2pUTqjBvWJtioTNJPTAUkKEArqB8f9L7ACP1UEXLmSBxlg9KSNuFZ+tmsSRjcL61EG4Kb\n\
    J+3vd4i+Uk1S02N17t6vjUvDNElfiwKWwDzcvY8Nc6O9eUboF1EoAJE45s017eXCLP2K9gM0oM8riT9d\n\
    ywacol8LK0bJw+59e7tGn0wdJ+hnEETgoIB071MD7ubBD9LPrkxZInHzPpbmsrITH6WfUQVZguAU9z5h\n\
    49Sk7iqM0M/EWUuszrAZGbZg2KuP0re3hcr0uEBaIfvxxfKBJuiz5QLXINZSp48tZbPPLH2hSkmDbEvv\n\
    yWNPF3mGvpRK4d2aeu3JSfP0LdfEID0ukK2GF7BwAJigb9ZUi59IHHmD1BL/D+/nwlyiZM4rgWcDuv1n\n\
    6NvDShLRN3ULBm4ifSSZom8tFxUDQP6+3tt62gMaoV9UuELARle0XKAm1tX3bIbpV86l1sD76vR9ZONJ\n\
    79cqaLNDqJ4dDkNL+/MP0ldINSMH4VCst3hbt7HnLhwG6CsysESxVlbE7h2+j7VR+orVZoaSwwqlZ5u/\n\
    3gn6SqLWeQPvl5WS575NVLPJo4xJqwYFah+qwKMt7QuM0GczDkrgnbqiOdOGfcvNWe+rCKfKgferT1Xm\n\
    Tjv+lPc1AWGR4G5r3yakd9393Y7ST/2CHx8fwXaKDdWPz/vjj9DPbDLBtuLi1b1vuQCzXVdzVetaj1+X\n\
    VfCZtk+csn9dQ/StaRFhqE7/9C1rLHv1UfrFhgaEx963Ar7OgQ+FMrHraqkW+zmgjz7O+kAl96vcMH2b\n\
    2Kw3PnanVfCpSgxOd+eH5/0CmKwxBtZEn6i6qE3kc9tWAdsXIQhOK8A9HND983H6Be1ZAQfifZG2acpu\n\
    l/fio/QLQVbbdqMKvk37Hxm9s3ycPqmYeR4np6kTvrtHJnfdwoKS0+OJ0wtYOPiebp19gP7v3/8OAAD/\n\
    /xQUiizQEgAA\n\
    "

/-- data.go:2561. -/
def compressed1998 : String :=
  "\n\
    H4sIAAAJbogA/5yXz4obRxDGX8XMNRqov91d/QY55ZC5hRzEegKGXcmRtORg/O6p7g0OjFRm1MYH44Wq\n\
    2t98/dVX36br+8vLer1O9XZ5Xw/TermcL1M9vb++HqbLev16Pl3Xqf7xbbp9eVuvt+Pb16mWIgBmhQ/T\n\
    5+NtXfwnv/7+21Qn9P+cAWfQBaWiVeFfACrAdJhezp+9EB6m0/HN/zH99eVyvX36+/14ua2X6fth2yGR\n\
    loJRB6QFcyWpgpsO9H8H/yU+vZ3Pp/vqyqQMOapOsLThsUreVOcf1V+PPxtfLWUmCxuUBVIFqmCbBvCj\n\
    wWn9J5g+qSTFgD7NwAtRVa04TD+jUSKIOiAuCJW4CozQzwaEHND36ragVipVR+kXRQENxEMzpS6eXHkr\n\
    nj30DUpmDehz0z6UKlR5mL7lxMkCPjwjLyCV5Z7PHvoGLh7LYXXCBZyMVR6kbwgqFsmTu/a54gN57qBv\n\
    mFhy5AvStY/defzT4gh9I2ZvEWhfmvZd+O48DJsOu+gzoCaUsLotBFXZP++m+l76rAaWQ0BN+9TkqVtA\n\
    e+gLFiuJHhfXRh+9plSiUfri6g+frnbnUUd/P/4u+qpKGn1bbfTBq6eK22+7l35CkkIaNSBtn5fdOHWA\n\
    fsrq/IOHldzZFt8o4r7Ao/SzKHHkPGlGaHz8dTXneZ5+gWyWUlg9N/W481AapF9SgnCtp5mkGad+rPWn\n\
    6Ruj54ZgpWff6j0zkOMZo2/Q/mAKxvcO1tZW+8QD9L168q2LJaqObgyp23IZom+A5N4GwdPNM3ELhaIV\n\
    nnceL+6xJ0cPK8/s9Lm6OGn7sHbTJxUKxdP+9rX1QDy76LMbg1tDVB2l+z5UGaXPbg4igTzLTNTGd/nD\n\
    Vp576IsoJw2nZ+hx1mPDdvrd9BWKnxTB+Oavt60tX7x3r2sXfU3axBlVb4nK4YDLf5B+YgTTQDzWD4rS\n\
    ni4/7zwGGTCjhNN7oPK83/AMaz8n9JvuMX2ElmlbqvLYM0S/oHcIIolXb7dcn/9up++l7ydFIXm81r1B\n\
    o+/jQz9Xnqbvn7WFhrB4Wbop3OflvfSxRcIcXNPo17T8t3Xvruk99BGyeGx7rB6v7onKi5L1SDKQ9w2b\n\
    7aQSiAd7qJJ2zg3cuoaEfohy8Gn9kM59enbrHKVPyYoEiRP7Nd2u0Y/E+Tx9duNXCOanlqh8p/utDtv5\n\
    99IX3+rAjw+K1qCbgzggGaAvKVn4sD4OaWjap930//z+bwAAAP//HhOZm3QSAAA=\n\
    "

/-- data.go:2585. -/
def compressed1999 : String :=
  "\n\
    H4sIAAAJbogA/5yYz2okNxDGX2Xp685A/VVJeoOcckjfQg6DtwML9sxm/pDDsu+ekkw20NMV2gIfDIav\n\
    5J+qPn3V36fb4+Vlud2mer8+lsO0XK+X61TPj9fXw3Rdbt8u59sy1d+/T/evb8vtfnr7NtWCSqKS+TB9\n\
    Od2X2f/yy2+/TnXCUsoR8Ag0A1XFSvwZoAJMh+nl8sWF6DCdT2/+y/Snl/j0drmcpx+HtXouaEVC9TKj\n\
    uHRFWanzT/XX0+3+6a/H6Xpfrs8FkuYMFh4fbUatYlXXx4efBc7L38HpjUAFLBInmbFUTK6/Esf/2Hy9\n\
    /t/xzUrORaMKjLPLQ66oI/SzmBLlbXU6Qp6RXLRSHqRfUIyUogKYZnA6UJUG6Bdj88uNxIlbZ4q4/iB9\n\
    AlYrBbcrcO/9VLV4+w/QJwRVoeBu+Ygw+8UKV1nf7U76hKmkhEHvc+/9XBUqDvQ+ERmYBVfLvfdduVRe\n\
    X+1u+uQXoKVEFbz33RjE6ZfPgB+mz4mSUHC30pwH2F2hCq7U99IXL5EwGC7pva/N2jivCuyhL25qpqE4\n\
    0UwOnZ7Fd9N30xekgL4cGZpxqv8HQ/QdjCQJZle78+TK0Gd3iH6yVNw6owKoM3L16aUR+saKpMFgaaPv\n\
    yix9sMboZ3A8EkyXNvpgzTiFRuhn89nKgfOkI1hvTX/TdZB+YYCkYQHk3p7Sn60P0y8FiGNxgv7qeu+v\n\
    xffSZ0huPBjQ9wp5pjZa3ds+TJ+Rkj+6gbp5gfbqavbxHaPPmJksch5r9N3aSCsO9D6TJCQMfME6/Wb3\n\
    bv2j9BkTYsyHeiohH90h+p4ZLEWpIbu1Nechpz/oPCycikXHz0fEHqrK8+juoa9ARpZC8dIzj8fZNEpf\n\
    DZEj48xHcm+A9urKunl20U+MYJHvt9jW3nQf32H6ySNnGBraTysA/Nyee+ib+pMSxdnSApWbphvzky/s\n\
    pp9Jk+Xw+OTPFrZUAiOvrl8rG8j2toXQ86w2WwYZpF8k+UK3ffxWoMzdl4foC/i+JcHkuniLs74L+au1\n\
    7p299H2V87clbU+XV/BM677vfGg9XXvoC7KhpvD8/G4Mqff+SN4X31fcnrdHF7GFqhZp/XrX69we+mTC\n\
    Ye9gj7Pl394ZyvvC7Bcg24ncK7R9zqo3qIxsW8K+TKcgUTX1bgz0nqiG6EsLDcGHEqQWqlpoaOYzQF8Z\n\
    VDTozPdFGtoq13x/jL66OZS8/S3DK3imRevHX3/L2EU/iSUO9pWm3r/z+N3q3i8Nf/z4JwAA//8lCALq\n\
    0RIAAA==\n\
    "

/-- data.go:2610. -/
def compressed2000 : String :=
  "\n\
    H4sIAAAJbogA/5yYz2ojRxDGX2WZazRQf7u6+w1yyiFzCzkIrwILtrSRZHJY9t1TNYYNjFRhto0PBsNX\n\
    rV9Xf/WVvk2395eX0+029fv1/XSYTtfr5Tr18/vr62G6nm5fL+fbaep/fJvuX95Ot/vx7evUmxhWkmaH\n\
    6fPxflr8P7/+/tvUJwKAGXCGsmDtKF3tF4AOMB2ml8tnF4LDdD6++R/T+fTPp7fL5Tx9P2zFq5ZaIRNH\n\
    WZA7SxfYiOMP8b++XG/3T3+/H6/30/WxQhVqBppVIFzA5bGLbirQfxWcUHL+BlKYKFWvC1jX2oU26vxD\n\
    /fX4f8dvplpbUoBm0ADkn0C3BXbQV+BmBjUTR1qIOzmbOkhfwQsUTeh7hbZg6WSdR+grFmJrmKmTLcBd\n\
    S2cco6/E2Jry8wIcvQ/asXXkAfrUGMwSNjwjL1C6tkc2u+mzkikmr4tngrX3/RNsX9cu+kLAwOn5o/ex\n\
    ewOpnx9H6Es1Akvoi/8ugV4686bAHvoq2mrWOzIjLqGMa+/gEP0C1oyT1+UVahinUMe6qbCLfjHvnSKZ\n\
    OpWFoDN1kUH6JsglO74G/eh9v97t8ffQt1Zrg5KJIyxuOy4rZZR+LaxMSe9r0IfqT6sTjNBvLEScqjt9\n\
    JJ+I68saot98cmFGv7i7he+jdh6gX0AJhZOh4uItfIGjfQbpF8QmaWgoM5Z1snhusAH6BasPRkzPT7oA\n\
    Rffo9vw76RcSa5SZg/lkj8dFT8xhD32GAlWSq3XxGler0mF7tbvpc4QGTLzBgn7kNR8uW2/YRV+ES8ky\n\
    j80k0fs+eGWUvgJ6Mkl832bGGOtUhny/aEFAS9hU1197hx7Z7KZfGIuPrqwCasx1vwAZ6v3iaZYlcc46\n\
    E8VQVHI+g/RNxX8Sa/MCHtl8rMMayX+afkVDx/NcvK1x1sIXeNT3fZswdofLKniqirnYxny/uO+0mvV+\n\
    W7cJCuekwd43cGsQSUJVi0jrxw9z2IaqHfQNzJ9u4psIK33vfeg46vuGQsb8/Ol6hci03p36+HT30Pc0\n\
    SBEbMvXIsy18nwenrlHhSA1pAYvQ4Ovcw2DZQ599UazyfKggroHKYhei7baym36sc34BWQXPtD6z/IHB\n\
    dlXfRV/cOolbqu5zS+P82Ma2LV9Vmj/d59bsBXyse2jAj0j7s9uWaQPyffG5OK30110Rtov0bvpFSRXS\n\
    Ck4/ulMfK+yibwhASWoIdc+z7skfqWGIfizqPhmzAvRhzdx5z/c8f37/NwAA//9XxmwJbxIAAA==\n\
    "

/-- data.go:2634. -/
def compressed2001 : String :=
  "\n\
    H4sIAAAJbogA/5xYTYscRwz9K6avmQZJVaX6+Ac55ZC+hRyW9QQMuzPOzCw5GP/3PPUGB7pbprbMHAwL\n\
    72nek55U8226vz0/n+/3qT1ub+fTdL7drrepXd5eXk7T7Xz/er3cz1P749v0+PJ6vj+eXr9OreYSc8wq\n\
    p+nz0+O84C+//v7b1CYh4tk+soi0IC3KL0SNaDpNz9fPAOLTdHl6xX+mv77c7o9Pf7893R7n2/T9tGGo\n\
    lLkquQx1EWqiwN4wyP8M+BKfXq/XywG6xqKBPXTWhVF/bswb9PAD/eXpJ+UXCpGzuOVLXDg0Ki1uy6cf\n\
    BJfzP8fVF6agQvEYXIC/cGwUmsRB9Qsra1B1GcpCEAf+6oD6RYRyyi46p8WK18Zb9F71pbIqOfbKLGGB\n\
    9AKOrb096odUEoV6DB7wWUhM/VRH1Y+ciian/GC9zxnm7ruzS/2Yc9LitGaw3sdkxbKfrF71Uywh+gJJ\n\
    MoHkXSD+qPrKgn8OeFx7n1tCNGzBu9XXDKziM6D3o5VPW4Yu9XOIpZCLjt5nbSHs6+9VH9FTMwWPAL0P\n\
    ArH2H1AfbUlJnc6Mc6CF0Th1Hawx9avEoMEpP82ULdsSmmdbfpf6tQonb6ukVX1ec43G1K+EyaXqEljy\n\
    BBsu3hJ0qF+ZcxQtLjh2YkAoYK8Mql85IzljPmZQfGx0I+IhD6gPa0uNwdlbOnO0yQrUQhxUP7DgLHGa\n\
    R2dhW+upDvV+DYrs9HIB4O+5wOPJY9qkJE75GRbb6FLal9+lPiaXyBMnz4xgqDC2xS16r/pJUwmevXkW\n\
    WhdL2tvbo76KlFSc5AF4tslF8sTR5KlaKWp0/C2It4W0pbz3t0v9rCTVy7Uys9hJkiDOqPoFOyurWz5X\n\
    S56k+7XVo34BsmttsZUOa9OBtd3q14i9W50XRf3vRRER/fJx9ZmAEjG8zslZZ157E8CiQ/IbQxaJXvKD\n\
    YW1QGUp+oHOQUJIrj70nyKJzJ0+nAaAQCuRlP5M5YJt3LPsNXtFE+VgfwMMBSzbe69PtQBDMWDz22BjW\n\
    wxZnM2097nIg4DQR59ECdDhg85UxYsMOxIQhczYM27vRJIrvl+dH737AJxzOnJMLX2w7YspSGjr8jaGg\n\
    g5wMAoM97BQJvf8CXQ6gObHf3fpF7PxZV8zYwwsUmVMAi0cR1phIPPTyMviMt5EcxyjLetxWO27j9uHe\n\
    7UAJKjU5DoidWCZQbTzkAM7bqM7PAkA3B8hmYPezQL8DeLvgSHRSSNYXBr4A+jT3OPDn938DAAD//57K\n\
    xEXiEgAA\n\
    "

/-- data.go:2659. -/
def compressed2002 : String :=
  "\n\
    H4sIAAAJbogA/5yXzYpbRxCFX8XcbSSov/59g6yyyN2FLIaxAoYZyZE0ZGH87jl1HRy4ozLthjswIKjT\n\
    3V/Vqaovy+3t+fl0uy39fn07HZbT9Xq5Lv389vJyWK6n2+fL+XZa+h9flvun19Pt/vT6eelMTFKbSTos\n\
    H5/upxU//fr7b0tfhEiOxEfKK2lPpVP6hagTLYfl+fIRkfSwnJ9e8c/y8nS7f/j77el6P12Xr4d3Ck1q\n\
    TjlSYF1Zu1JPeadA3xXOp38+vF4u5wfROWvS+PzCK5dutdv+/Pw9+l+frj+8gEiqqhJK1FWkJ+ksOwn5\n\
    XwIYohtIlVY0uAE+294n4ZsloNZaaaECy0p4I+28VxgiYEI5S42iC60sHUlkdZqAVfy1FkqUlVrn2rlN\n\
    EUhaIFAeh9etBrhLRhnMEshUcIGAgB7ZVsIbWU9TBHLJxo2j6CIeXVpPPE2gqLZWA8jqNYDnxxPJHvIY\n\
    gdIUJhSEt60G8uYRCM9TBGrWZhQqoAaEuuh2Af5pAk0pt0pRdK8BFEDrRrvo4wRaBeUSJKltNWAdwbns\n\
    JIYICFnLOQUllpwAob5K1zZJQBixTEIFEGDuhk6zVxghIFy1aAtMGtGb83WPk1kCIsbaNEihdJTsRud9\n\
    YJ9CYwSQQmgFQfiMKnMXglHTbA2IliS1Bp04H5lX1C56JeUZAqYZbxR4HKJXPz9qWNI0AVgo2kAoIead\n\
    +L9GNkEgZaXEQYYWdJrN5Lin6RrI0nKVwCfKkclrQMB47xNDBHKtLFGbRHRYRHK+vD//OIGSvN1YJAEC\n\
    TJ6kyaYIVG4FRvQ4fMW0tb2PbbPiHIFa1diCFIJCdZ/gtM2LP08ALQatOHCheuTk5/dxbtqFlCglqEQS\n\
    aPayjdPviniIgFLJMOowvLLvA4o+OUtAWVECFmRpQxZ5I0MW2UwfUAYCPFAU3beN1n1a3CfoOAHJ7DeI\n\
    JHzlSIiMPJ0ioLgDrhCGb+5C/kT7DB0moA2c2+NRgsnnXZZtnN6PEkMEzGpBM4uigwBlz6A0PQtp4mqN\n\
    QwkQoG9GvZcYI5Bqbirh+4AAfFSwU87uA5rNBMPEYwX2aQsu5DvffqEZIlDIsO4F52fv84iOQUX35x8n\n\
    UErKWMsiCQy83uzT+6VvjECFiVJ67KMevniJYVbU/co9TKBintYSKGxbN7qY5vdL/RCBloVL1Sg6bxbh\n\
    +4DOEjD4UApTSHzghdF5HU/txEYNFRb0Sf62ciNDZZvmhgj8+fXfAAAA//8JDSF7pBIAAA==\n\
    "

/-- data.go:2683. -/
def compressed2003 : String :=
  "\n\
    H4sIAAAJbogA/5yXT4scRwzFv4rpq6dBUpVUf75BTjmkbyGHZT0Bw/5xZmbJwfi751UlONDTWmoL9mAw\n\
    PE31T+9J+r5c3x4fz9frUm+Xt/NpOV8ur5elvrw9PZ2Wy/n67fXlel7q79+X29fn8/X28PxtqUyRNRSm\n\
    fFq+PNzOG/7rl99+XeoiRGElXkk2oSpaKX8mqkTLaXl8/QIlOi0vD8/4x/Jy/vvT8+vry/LjtFcXoWhU\n\
    PHWmjUNlq7Hs1Pmn+p9fL9fbp7/eHi638+WoRM5Wirol8sYE/aq6KyH/l8BH8l4QYg5WxJMX3SjXEKvK\n\
    Tj78lH96ePcBkYpZdAgIirQHKN4wRSCmXDj56mVjrixV9+rjBDSGosUtwbZJqArO+xJjBIwYiB3AskrY\n\
    WgOlGveAhwmYaaHgMG5/G0kNCZ9phkAKhgZ11Zk3Ss0DYa8+TiCVHFJKbonugWCV0xSBrJrYHBeH7gGG\n\
    Ae5dPEygiMBn8bhCbB5oKYQ3xM8o9VECpQQ2C546Ugg/O0I37NSHCSipcGbHA7F7oBNoNuMPE1BmCGUH\n\
    cOwegL8KbLCTHyWgnAqH5LhMewr1pGadIKCgy0IOAe0pJC0iZJ5AIDUu7JUAAYqNQOApAsHQRuLKgwBU\n\
    g1Tayw8TiEFjNicndA3ICa0CbZkhoMTJ1HGYrZQ2SEu6d9g4AdVcgjoxYSvHBpm1apkiYEKWvDFjq6BD\n\
    tUYA3ltsmIAV5pKcLkUFdGmpAX/7Lh0ikDSqm6KpEaDQOijuP884AZgM24TzgLRy6DHK9w8YI5BTIneS\n\
    pUYAuxAewfsOHSZQorF6Jk6NAGZlWyX2LhshYESWEUXH6hkma79fco3THjDCnDGvSfPK0kwcc9+FPk7A\n\
    OERyv09ehVoKtWV3NoVgMsyCdyqkjfGNDmJ0iIBoEVWnQUvbtDBlAiJieg5YEOaUnCYt/eRIfRfaN+kY\n\
    AVxLnKP7AqxasBgmzd0uMUwA+7Qmc2Z9WaUPMioI6xkCylhUyrE603/3Hk6CsFcfJ6CIiVyOgw4l2rrV\n\
    bcZTc6DdShT02GJNPvcekvk5YPj56FTzKmDfRQVcZGozBJIZZTp2GHPbtMAXDos8ew9YbjEhx03aSpQW\n\
    E5iWbd36+D1gBVe3Odsc5Dm1F7SjbC8/TKCY5EjHSY0K2LZwUjbtOHGRJRIWbxeCeugRwf/uQnMEMCcx\n\
    x4JjM5zdPSZCrjp1kSWIwwdOD/WTGz8/xr6NThFIwkmsON+oX92IIFTQKQKSUn5HvRHoKXqn7hL448c/\n\
    AQAA///JOQzOAxMAAA==\n\
    "

/-- data.go:2708. -/
def compressed2004 : String :=
  "\n\
    H4sIAAAJbogA/5yXT4scNxDFv4rpa6ah/kkq6RvklEP6FnJY7AkYdmecmVlyMP7ueWqDAz1dTiOYw8JC\n\
    vZZ+Va+evk73948fz/f71B639/NpOt9u19vULu+vr6fpdr5/uV7u56n98XV6fH473x8vb1+mxlTUKnHS\n\
    0/Tp5XFe8K9ff/9tapMQ2Uw8U1k4NZOm+gtRI5pO08frJ1SS03R5ecMf01/Q+PB2vV6mb6dteWMTMo7K\n\
    c1rImpUmvCmvP8q/vtwfH/5+f7k9zrc9hcJVUokUhBfhRqVp2SjQD4XL+Z/o+5OmLMXC6nWh3HAEtU11\n\
    /u96Pt9+eoBMqWip+xIyU17Im9WmdYhAzqVmT1F51oW1GTdJowSKZPckkYLQQrUJtSQjBEpV/8n3iy+k\n\
    TdBE2+8/TsAzJ5JgBrQTEG1cGo3NQBXmkgPA2gn0DhUwHiVQXSSX8AAgIChvz0N8hIBTYjAOCOg6A9TM\n\
    VwI8RMCZszL7vgR+aWFplBr7RuIQAWf4UK7BFNvMsrqQN7ZN+aMEXNSZLGAMhbqw9S6lulE4REDJi0gw\n\
    YTYLTNoBFz49TEALSVXal0hQ6U2qqSkNETApcNIclWdeAcNK8ygBqyZWwgOAAPon2fMBDhFI2SzXYAZS\n\
    JwCTTuig8RnIotmiRZYxaf0A3UbLEIGMIbMUbGKUr6sLWWMeJVASNr2GCly6guCatgqHCDhXSjngm2dJ\n\
    C+5mXTTDBBzLMtXAhQq2zdqkFZyHCFRNnjhw6dIJoIcwYqyDBCpR1kRBC5VOAAeQhDg0QKASFn2RwONK\n\
    J9CDkK97bIxAZamFczBmZVbYRF1tYjtmhwhUroxVH3So97CLRY9NrKMzUCVztRxsGp8ZYU76HpDtpjlE\n\
    QAUTQAEBnwVZjtE+TcYJqEMkCnM+K61xC1e0XTXHCJi54rdfvvaoxRkW1GR4BhBWhDVUYOsPmu5CW4VD\n\
    BFJxpLmAb+2vDXx/Ss9J4jiBrAiLFh4AgZd7jljT6ACBgudGyvsmx7QSQA8hLm5N7jABhEWhvD9lUAAB\n\
    tBDefDayByrCUM28nyRQvWddzDA13iaJ4wTg1OLBm7hLeDe6/qQcIwDCxry/yZh72O1JBT1EY+8BJhJk\n\
    lSDvQgF5t6fR/PxqPUAA1d3U6r4L9erfkxY/P1iPEmBi1M+BTUBC8rrsfexFxoT+dArSHMtKgHpWTINv\n\
    Yig4jqDBHcn64viehbZ3dIiAqjvpvkn36t5dyGg16UECRkWzBmMmnQD3HLGO2f8T+PPbvwEAAP//Qtn1\n\
    fqESAAA=\n\
    "

/-- data.go:2733. -/
def compressed2005 : String :=
  "\n\
    H4sIAAAJbogA/5yYT4sbRxDFv4qZaySof/33G+SUQ+YWchC2AoZdyZG05GD83fO6vTgwmjKdhllY2KWe\n\
    pn/1ql7r63J/+/jxfL8v9XF7Ox+W8+12vS318vbyclhu5/uX6+V+XuofX5fH59fz/XF6/bJUZrKUzKwc\n\
    lk+nx3nFn379/belLkIUjsRH0pVTtVSl/EJUiZbD8vH6CZX0sFxOr/hleTndHx/+fjvdHufb8u2wVQga\n\
    clT1FJhWlkpag24U6IfC5fzPh9fr9bJXvVig5FdPK8Ua0nN1/lH9r8+3n75AjFaEoichYWWqqlXiRkL+\n\
    kwAG7w2SSpHivIHgWQnHnytv32CYQCrEmR3GUMirSFWqvGU8RCAHlhLc6hxXFOVQw7b6OIEi0n48CbGV\n\
    rIZQRaYIlJzYYt4vr+8eUNggTxKAzSwSOWekzQNUAPjZZSMEGoPEMbjV08qoXqqEWQLMKbdX8CTgAeFK\n\
    eGiGAIuRsnc+1j3ANXA1nA9PEZBSJIjjMuse4KpoId0oDBHQGEW9GWfNAzCA5j6FeI6AqSaNyZOABxiV\n\
    ATltJMYIYMTlZI7F2pzrUyhUk1kCIZiwRyA0Avj0lqtNEWjnX8QZ0qFPoVIDqsdpAjGnEoMrIdpaSKiG\n\
    rcQYgWRBf0JA+560UmmaQKYSKDsEIp62B3BGNEUAp5NjcjwcjxxWkipWdevhcQLFWFNyPBCPgjERKsfK\n\
    cx4oJavboSif1z5En2fEKAGkiMCWnRZKjQCWAHbZU5eOEBDWYO6MS0fGiIjYkc98hwkIEGgK5kkI9zCH\n\
    NGEzBAQjmnJkt3xui75vmlkCKt3J+woZRmsKiIyUZwhoIcrsbOJ8ZF0RdK3FoWkCZskoOzaDRFkZe8ae\n\
    V+UYgUARYc7poXyU2HoINnjaZMMEQkrKXl4sPW1hD3zPi/+fQDTN0VuT5ci9QVuW246IcQIJjHNxWggS\n\
    uUFGcd220BiBFBV3JscDpUUtbGIT/OssgawacFC7CkydABYZRLYmHiKQS0J/7ncQqiPrYke245mfQiXg\n\
    ziH7kJtEamMUzxPkIQJK0tLovotRXvomg8tk6+JRAooDsmj7cZr5Pe9iVz7F6RECcBfhPuMQQPXS03Tq\n\
    SWvuPoApSuigfRND4vulL+x8bTBGQHDdIHIAc49a0u9LafJGpmpIvM6uZGl5F4kdtWXmWwnFdcai16Dy\n\
    nnUxhWj7+ccJWIy4cexHCUggbrVBjVvH1LcSGnCliXl/CqG89CmNG03bxEME/vz2bwAAAP//BZmwkKQS\n\
    AAA=\n\
    "

/-- data.go:2758. -/
def compressed2006 : String :=
  "\n\
    H4sIAAAJbogA/6SYzYojVwyFX2WobVwg6Uq6P2+QVRapXcjC9Dgw0G1PbDdZDPPuObcmdKDaCtU3UAwD\n\
    bY5c+qQjyd+m2+vT0+l2m9r9+no6TKfr9XKd2vn1+fkwXU+3r5fz7TS1375N9y8vp9v9+PJ1aszJLaei\n\
    fpg+H++nBX/6+ddfpjYJkc/EM/nCpVlu4j8RNaLpMD1dPkOJD9P5+IL/TH98ud7un/58PV7vp+v0/bAN\n\
    kSUJU4lCsC5Um5YmZRNC/g2B1/j0crmcH8lXlSoUyYssbA2P0EY+vck/H//zBYqpskoYoS6sPYLKJgK9\n\
    RTif/oq+f2WhmgMCMpMt5E1qS+MEaiErJSAgM6eFtCmeIQJKRi4lR/LCC+WGMqI8SEBRPp49zJGUBcJJ\n\
    mm5ztIeAMrS52mP11HtAqLG3ZKMEVFCmqKMoBHpAEgg32YbYRyCRqUc1lNYeqPgcXmKUQHLJauEL9B6A\n\
    fF5zxB8mgPwUY36srr0HODXoGm/U9xPQqm6SohDoAXx7lUZpE2IfAbNKLBrJ9x5QOBy6bCO/m4CjTDmH\n\
    OZLcq1QdHx0h4IWcog6zf1wINtfnwCCBbIRBEKTIVhfKzdAG2xTtI1CYvUT5sVloYWrC7/Ozm0DJBBMK\n\
    cwQC3anz6kIfJ1BTdpTQY/WOuHscApiMEjAirWGR+szcbYIwKocIYAqkmiMCkC99EmPWp1ECxmLsHAwy\n\
    n8V6E/cclQECxlXVNfC4DJvr6imvJj1IQAxFFIfg1Sb6sw2xj0BiTx4RgPzqEejicQKpEFcJI4AA6geT\n\
    mEZcyNSohGOyYNSvq6L/HwK2rltxiHWQGbxujIB5TUJBF5eZfSHpJifbLt5NAIQJ60QUQdLKGOtQHiGQ\n\
    yWHTgUWUOXFfVHAP8NYi9hPIjmUlBQt7RRV1F1JEoSECBeeGeyiPVYulbyq6ld9NoFQx04BAXbctrKK4\n\
    B4YIVMe6mINFpc6JujosIm0Xld0EMGYq+uxxipg6AejzKAGnXFClj2sI8v3g4z4n39XQXgLIUFUKcoQI\n\
    IPBjW3mXoz0EXFCj+DdUrwvWCPFG23tvPwEAhpc+diHmdeGFTeDyHroHPCVLOGkieZZ12cWcrIP3gCs5\n\
    c+BziIBtS6TffDJyE7t6xaQJKojXe2+9ifs2PUjAJJcUrBL84+zGumh4hyECVhPO7qBCZSXQy3M9N8YI\n\
    uMPoglmPCH3f1X4z9X334wSyJKoSpge7LvffC97/ZBAS+P373wEAAP//l6zzZaUSAAA=\n\
    "

/-- data.go:2782. -/
def compressed2007 : String :=
  "\n\
    H4sIAAAJbogA/6SYz4ojRwzGX2Xpa2zQn1KVVG+QUw7pW8jBzHZgYcbe2B5yWPbdo2rDBtqtUFMLPgwM\n\
    SC799H2S/G26vb+8LLfbVO/X9+UwLdfr5TrV8/vr62G6Lrevl/Ntmeof36b7l7fldj+9fZ0qYi7KlLMe\n\
    ps+n+zL7v379/bepTgRQjoBH4Bm5SqlJfwGoANNherl89kh0mM6nN/9j+stzfHq7XM7T98M2vAqaMEbh\n\
    EWekmqQybsLzj/Cvp9v909/vp+t9ue5kMCxGGmewGVIFrLTNAD8ynJd/ou9vJWfMOYpOMhNX8CfkTXT8\n\
    rzxfrv/3gAJsghI8gPwzg7QSyfYBXQQKIiAmi8IjzGBVqJINEihYSI2CGnmGMmOuKJW2NeohUIiBlcPo\n\
    lGYorUFxnABZZs2wn4KbBhwyugZgiABnL5FwFB4dsEvMAfMogUSFKMUZXAPeoi6DbYYuAklTzlGDctMA\n\
    WitP0zCOERDhhEn2U6SmAdTWQkk2KfoIZCK3ueAFqWnAX+Aqo+0LuglkBVOhMENpPsdeI9pk6CJQ2LJY\n\
    +P0fGuD8MwQUAXLUQrISwIpQEw8R0FKQSvACWV3Iy19WkxsjYJy4UAoz5JmgkroMRgiYSfJhGUUntwha\n\
    50AZJaDgiA0DDWSfNk3EXiUc0oCi+yhQMAc8vK6TmGuyQQKKDjmcxPmI0iYxppq2jHsIKImXyMLykDfo\n\
    Gl225ekn4BaBicIUDC2FeBeNEWClwhisWu0zu4n6HEAdJZDcRAsEs7IcMbVlzlsI8ggBAZUSTeLSCLgL\n\
    ucJkG72fgBTJooHMSiPgkZM9y6yPQOakhoFHqAu5qZiwytYjuglkE9NIxHpEntsA5srbFuoiULIksKA8\n\
    eiRs0cV7dNyFlKwkDprUU2ibAz7Inpq0j4BqYYbAI8yH2bwWxxf2UQK+TKcSidjWi4PbOv0k4h4CBkQg\n\
    0Rywtmm1PdF8lI0SMPBtF6JBZkdaB1kqFbZN2kXA2x9y5KMI68HnUfV5zPQSMILi98D+KuEZnADkNith\n\
    u0p0EaCipGW/PC26tXuGk3+GCTA3CexD9hROANq2XmHIhczvPQ8V1AfboHcLInje1rsJpJwsyb6IWwZb\n\
    r9a0ivjD94Df86yRx3l033XdRfnhcWMXmZso+s0REMC28PokZlwJfPwi82UaGWF/F0JqBB6/SsDoTWx+\n\
    j7kM9n2uZXj4hG/UI79KWFH16gTleVzc0C4y2Zann4B6/5jt38T4OLv92/vJ0XUT//n93wAAAP//u1Xy\n\
    kqESAAA=\n\
    "

/-- data.go:2807. -/
def compressed2008 : String :=
  "\n\
    H4sIAAAJbogA/6SYzaobRxCFX8XMNhLUT1d3V79BVllkdiELca2A4V7JkXTJwvjdc3piHDJShVEbtDDY\n\
    nJrur/rUKX+Zru8vL8frdWq3y/txNx0vl/Nlaqf319fddDleP59P1+PUfvsy3T69Ha+3w9vnqTG7Fxex\n\
    tJs+Hm7HGX/186+/TG0Soron3lOdmZuWpuknokY07aaX80co0W46Hd7wh+l0/OvD2/l8mr7u/qsOkSRZ\n\
    rUTqbDN7S9asrNT5u/ofny7X24c/3w+X2/HyoARDyyksITKzNrVG6xLybwlcUnQCztkTUSSvNBO0tQmt\n\
    5PW7/Ovhfw8gaubEjyvInsoMedwR8QgB8UykwffLnlNXV222/v7tBNRyyhoeQHgpQU3XB9hGIImxeSzv\n\
    M0lDG9lafjOB5EzMQQXtBLg0NjyXEQIGectBg2onwNRSvm/Q7QQySyrRFWknwLXpgyvaRiBXKZpzKO+z\n\
    cEveJI8SKMkS16BC2lOeKTXLSwV+mkAltJCG6izdhRRNtFbfTqDmWlg1KiHUbVQML21VYhsBV0ebhicQ\n\
    uDTaMzVan2AzAffqsIrHFQy/bqO4pu5zTxNggkWQ1EgdBMA3lUZ1lADjCTiMIioBAnAhQDAbIYBJmTR5\n\
    ANg6AchbbbwGvJUAi+GeIhvNeGizUBNdHvHzBJSZQDlSZzRoXuaYDxPQihI1IIASdXGh/gyGCKRURUrw\n\
    BvJe8tKhfP+KNxMwMs7RJC6dwDLol0n8PAHLOSWXSJ2XJKGwORkmkDXD6wLIpRMgh/I95G0ECqak1vAE\n\
    8k+a00brE2wmUKxaGCV64Oo2yqNvAP2TqwXf3399joHvDxCojkb1YNjXPedZMGdgE2WIgJtayoGP1r0g\n\
    zeHz+d5HtxJA4EVijyZN7Xm3X5DfT5otBDDoPWvE15ekhaBrS1QcI4DrR5tKYNS+rBzUw5wMTWIcwbAz\n\
    BT3kfd0g+GjGPx0lILmY14CxL3nX+xu4Y7yJgGpBYH+87zEtBKgTsDRMIBGnHDQpSiDw4plh3sv6ANsI\n\
    JGxLGDaRfA+70rOijU5iDGKsNPWxjfYK8AntaSv5wD4g5ilFc4z5W9bFT9dpejuBbFY4CHMowdqb9FuY\n\
    e34fECRd0hoQgPyyD2CnJB3cB6RULGUWVpDS04rZwvh5AtVgECXgKz3r9jnQb2iYgCNQI7RHJfrKkZtW\n\
    OOkQAcdKli14YtIJ4BVj5bY6SKADxloZ+IQsBKSn0U3/L/T7178DAAD//5iOn9qgEgAA\n\
    "

/-- data.go:2831. -/
def compressed2009 : String :=
  "\n\
    H4sIAAAJbogA/5yXzYpbRxCFX8XcbXShfvvvDbLKIncXshDjGzDMSI6kIQvjd091x0ygpTKtBi8MM1TN\n\
    7a/OqVPfluv7y8t+vS7ldnnfD8t+uZwvSzm9v74elst+/Xo+Xfel/PFtuX1526+349vXpSAxQgTMfFg+\n\
    H2/7Zj/69ffflrIQQF4BV5ANsWgozL8AFIDlsLycP1slPCyn45v9Z/nry+V6+/T3+/Fy2y/L98NdiyAi\n\
    MXstEDfgQrFo7lrQ/y3sMz69nc+nB+WJJCQit3zagIrEAtSV54/yr8effgBlDRqS14HCBrG+EaSuA3x0\n\
    OO3/eH8/Bwwcnepk/zZi+72iffVxAoIZcoxui7yhFMmF4xQBSQQszgzRimEjLJwL9DM0TECVNGaHMa2k\n\
    G1gHm9Ke8RCBgEpR4HF1rhowvqJFYJpAiJwhOh/ATQNkz1+0/4AxAlY9aUa3fNowVsCKswQSJA7J7WAa\n\
    wCqAAn2HIQLJFJzEeR6pGkAtLE3DOEcgU0pZHReSpgEtqs2F8HkCOUcbUmeGZMVYJcapzRDOEBAIZJDF\n\
    61A1IIWkoHQdRggIEkLI4XF1NZurGhYxm5slIJgEIzgfoJUAqM2PdZkhIKRSZeyVNwI2nnXN9OWHCdgm\n\
    i8juG5HtyubU2L/REAE2C8LkmLSujI0vF4jTBMRsgj2ZhRVsSHP9AOplNkZAESphrzxq22Sh4LQGNOTM\n\
    0XGhsJLtSqh7AHGGQLDxycHha9XNIuxtcqF5DYSspmGHQGwEwJ5/lkAMiiE4mzhWAlZe6xjNEkjEgOSk\n\
    lVgJWJhjLZRmCKRkJkGOSVv1VCfI9gv1Jj1OIJtLY3CGNBnnGiVqmOuHdIiAmoRz9LJiWpGrxH5kxSkC\n\
    CjGQksM4rQQ1sVuagJ7xCAFFyxLsEbDqsWpArPo0AXv/BBYaH7fI7eSwtM73Rj1GgCJh9DZZXrFNqLkQ\n\
    9yoeJmDvk8XzudzSVq67kvsRGiLAWUC9qJjbtaEtrE9nIZXAwVv2CD8CL+L9E40RsLCOgm75GnabBu6y\n\
    xDABTbbKnIOmdrCbrx4DRftdOUTATDRGUK96JQBFLKjo7D2g0WzCkxliC7y2ibUZ3fP3gMZoF7E+9oha\n\
    /r+wG++v+mECyaJEcm4m62A3X/0AaTb69D2gdq6myA4BrEmrXpTJ8vo0gWw3E7LzRO3sNg3YCGH/REME\n\
    ArDNED/eA9hObqtaj5r+qh8lECAHBXA7VAJ1CbRN/DSBYFE3YH5s0ladmknXi1tGCfz5/d8AAAD//xuo\n\
    7U2lEgAA\n\
    "

/-- data.go:2856. -/
def compressed2010 : String :=
  "\n\
    H4sIAAAJbogA/6SYz4ocNxDGX8X01TNQfyWV3iCnHNK3kMOynoBh/zgzs+Rg/O6paowD2q6gtHEfDAtf\n\
    rfTT91XVfl1ub4+Pl9tt6ffr2+W0XK7X1+vSX96enk7L9XL78vpyuyz996/L/fPz5XZ/eP6ydKRCrYAh\n\
    npZPD/fL6j/65bdfl74QIJwBz1BXhC7YFT8CdIDltDy+fnIlPi0vD8/+n+Xp4Xb/8Nfbw/V+uS7fTmMF\n\
    VjZtklVAXaF25A4yVIAfFV4uf394fn192VEXEoHCmTpx/P4qnXhQxx/qf36+/ucBpDExtqwEwwqlY+vc\n\
    hhL0bwnHkJ1ABblJ3ZenM+hK3NUh1KMECqJag6wCygrU1QnAEQKlmnFNCNCZaHVRiQKHCVSuikhpibZi\n\
    8evvTIcIVKvFKe/L8+YB7SIdRsDTBJr/M0sYc3iAsAN3HBlPETAWAkoI8OYBV4ef8YCZPyEtWYnwAHfS\n\
    ruUj4P8mUEGlVNR9eTlDCRcHYB3kZwlUJGmU5YSEBzyCOCAMFWYIVGxVgBK+ciZc0To5gTqoTxOoJFqR\n\
    ExPL5gGOFFI4RIARjTXxgAYB0O420HaUAHtOYOYy/Z5CXkTGClMEhM2AkojQIBApxB5EhwkoAJaSENAg\n\
    EO6qXY4R0NLMm8G+fHHG0QdQ/DtKoLC3muwJlTPSihSMeTzAFIFihE2SiHB1ixfEDmGMiHkCVRVbRqCc\n\
    qcQBwsTHCDRSIUxcXINAXE7pOrp4mkBrtXrHzCogrrRNWzDe0RQBE6kGicNcvUUf8O+dw6YJNJfyW0qC\n\
    ugYBNzHX90E9RaBBQyycnKB5p4lRC2AbtQ4RaChgFROXtTN6I4tG33l02QyBhta8z+TqJfqAe1hG9XkC\n\
    /nxMNWlk7Uz+SFvEqI6NbI4Ac8GGicXM592Q9yB6lxHTBNjEKyRJ7RW2V+o5gWNSTxEQJas18bBt20bp\n\
    Yv5GDxNQYlZKVib7vnL4LQkeIqAG6lq78tvGES/Up3Ua5acJFKkVbJ/A5uN4pT7v6iECLu2z4j6B+LyP\n\
    UafyMwSqT+zN0ityApFCzbPuEIEmElbO5H3Y9VFLvA/YUQIG6LPQvokRt2krrv/9xD5FwEopvtVk6sjb\n\
    ulTfb5TTBAy4gOp+THiJGHhrJ8+6caWcImAQG1ndz9GQb9En/QQ6/s1gloA/0QqFkgNsW7cfwCsc2omN\n\
    vAvUjC9tBHynt23bOEjAj2CMaYkYeFsMcziWmCPAigD5/cSwK9tGM95PRuCPb/8EAAD//0aJ4kukEgAA\n\
    "

/-- data.go:2880. -/
def compressed2011 : String :=
  "\n\
    H4sIAAAJbogA/5yXy4ocRxOFX0XU9u+CuGREXt7gX3nh2hkvhlEbBDPTcncPXgi9u0/WyDLUVJiahFoI\n\
    NJzozC/Oichv0+318fF8u03tfn09n6bz9Xq5Tu3l9enpNF3Pt6+Xl9t5ar99m+5fns+3+8Pz16mx1MTK\n\
    Jetp+vxwPy/4r///+svUJiHmmfClhWqj1FT/R9SIptP0ePkMJTpNLw/P+Mf0cv7r0/Pl8jJ9P71TL8q1\n\
    eKTOsjBDupFv1Pmn+h9frrf7pz9fH67383WnhKUsnOMSdRFuIs22JeTfErik6AROybPVSF58YWjXxnUj\n\
    rz/lnx7+8wCeidTKfgWZSReSpvjKCIGcqBSySJ15odwEujZMoBAXYQlLlIVKU28mQwSKVaIayktaRJsU\n\
    /OkogSqZ3QIPaPcALijlQQ/UmtWcI3V4AL8/eSMeJKBEZkVS0ELaPcC4H5xh20JHCChUkBJRD+kPD4Cx\n\
    bHvoIAFUKImFAwKpe4Ct50QnwB8koCQmailUhwcYEWQtbdWPE1CqyS1o0rR6AJDT2qT8cQLqtboEBNIs\n\
    tsrn1cU8RCAlMqT1fgVbUyg3Q5IOETCyah40qM1MPaSRcb1BBwmY9zIUlsj/NCkNEXBxZQ3GjPUU4oqE\n\
    a+yjBByEOQct5Bg2C6YYRoFtW+gQgWzFkuRQvfYOQkRIHiZQ2EuOhr3PbB0yvw37AQKlYJpZ4AGfRTvg\n\
    hEk87IFqTEmDCrkTwC5k2mxb4QgBJia3HBCAelkncW06TIApM2OfiEqAAEpofQ/5EAFmxTqRAovlToC8\n\
    74q0tdhRAixkzFEL5VmpuwwHSNsWOkRAXErV4HoKmuhHRNg4ARXH7w/WxTKzrjGR0adDBLS6httcmWXN\n\
    CPOWRj3AyUomC+9IkBOpM+btHR0iYGzYFoPrqX3TwqKSaN2mBwlYgQWiXaiuT46ectgYhwhgyDtJ4IE6\n\
    Czo09RO8GzOHCWRsQtlSWOFtkCHn0giB7BU5vd9BTOt7D3D9/SZxnEDRgoVrnwBKgABGDYKIxwhUDBqj\n\
    /X0a8iDQn6vcEo8SqN6fHPsp1Ct4fw90l42kkGAd5Rp4YH3SLLh+xYtp+6I8TEAwyXrURSX6ugWPFXTR\n\
    yHtA2KVCKpQvfVuHy3j7ojlKQARaKdgX8fV91yGPsP74iwzqiAgLxiRLJ0DrLpfyMAE1yTVqUukEEBOA\n\
    LNsrOkYgsVfV/RTityd3f+01o1ECKcNj8QFkTWraOcAegd+//x0AAP//MpTGh6ASAAA=\n\
    "

/-- data.go:2904. -/
def compressed2012 : String :=
  "\n\
    H4sIAAAJbogA/5yYzYojNxSFX2WobWy4v9KV3iCrLFK7kIWZcWCg257YbrIY5t1zVIYJlEuhEGjR0HCP\n\
    pe/+nFvfp/vH58/n+32qj9vH+TCdb7frbaqXj7e3w3Q7379dL/fzVP/4Pj2+vp/vj9P7t6myimsJT/kw\n\
    fTk9zjP+9evvv011EmI5EuPMlCqnSvkXoko0HabP1y+IxIfpcnrHH9NfX2/3x6e/P063x/k2/TisJRIV\n\
    U7WuRJkpV5XKtpKQ/yRwjU/v1+tlK3wmK0l64TnNVCqOyCq8/gz/dvrfC2Qlc6Kegmi7gHE1WinQT4XL\n\
    +Z/e788llEl70RUErDKi6zCBSM45dy6Ak2fh6uC8vsA+AkW0sHEvPNvMuZLjiUYJlEgaUnoKwrNIVYiU\n\
    AQJKnqwU346uSw1wFa3sowSUuZRMnSSFRLQkbSm0TtJdBBR0LaRDQI/syw3wPqMEVEwyp+gpiMxsVVFl\n\
    MUJAWZNLp0XoUWkWwttUQovgMQKajUjStoQdKTWJdtJKYh8BU8YLdW5gR9YZJey8NDkeIoAUleBOp7ZW\n\
    AxTtApxXCrsIeCpQ6D6PlJmpemAUDBNIkl17o8YbATQ6fY6aAQIpHA/U6aN+ZGk9wqKSjhLI7uiinSrz\n\
    hQA1BeERAiGaOHUyCNGjNek2icdrIIICs2xbIoHzzLKMmrXEPgLFGHXcaXLpyNxqAFXcmtwQASPm4OgM\n\
    MiggS/FAitgDBIxyypjFveiSlwSlqmu+uwlYO06dMsvodTOX1iZsqAsZl8yaOzWQGwHC85eqozVgsFsc\n\
    ucM4NwIY9IJnWjPeRQCTXhGpF10WLwej4uvo+wlo5CDr1EDATTTIGJUyVANmrpF6XjGa2eXlBrbO0N0E\n\
    XDgid7I0jpxbDbi9ZukuAh7oQdFJ0DiKtTmP6C8Jup9AMmFLHbsVzfA2CThqHyKQmYl7Zrc0q4Xw/DS7\n\
    YwRyTmy9haYsGwfMIvrEOoV2EQgUWfFudDitpxd6ib6fQJTs3Cuz0uxWWznitYj3ESgJSeTbGcq0mF3E\n\
    bkvNIAEnJXHfzlIowO8yhgDeaJ2lewg4RU4h214X0WVpEaoY9aMEnN1IdDtJm8SzTSCFhjYyF0EN83aJ\n\
    MbeFD1FhtXy90ewmIGHdnRgK8LtwW4shHdgHHCXApccXGzct28aT79hG5vAqRtaBzM1uQcLy60Kzj4AF\n\
    5ZK2N9bFTszs7Qa23lh3E8CgCe4Msna0VRn6hKw/q+wi4KVdYNtJ4IAA5nzL0eGvEp5SIU6dFJKFANYx\n\
    ef2sskngzx//BgAA//8yAXpbBBMAAA==\n\
    "

/-- data.go:2929. -/
def compressed2013 : String :=
  "\n\
    H4sIAAAJbogA/6SYzYobRxDHX8XM1Rqoz+7qfoOccsjcQg5iPQHDruRIWnIwfvdUj8IGRqrQtNk9CAT1\n\
    76pffer7dH1/eVmv16neLu/rYVovl/Nlqqf319fDdFmv386n6zrV379Pt69v6/V2fPs2VWTNrMacDtOX\n\
    421d/Ktffvt1qhMB8gw4gy7AVa1q+gxQAabD9HL+4pb4MJ2Ob/5hej1eb5/+ej9ebutl+nF4UCjMijlS\n\
    QFywVNGKeacAHwqn9e9Pb+fz6Yl1U6Ws4fvRFuJm/eH9+GH9z6+X/3WgUMJEFklQXkCqQCXbSdB/Eo4h\n\
    8qBYKRZ5QDPwgk4gVx4lkEAMSgoVEBbIlajKXqGHQEJkhlxC63khqIwVyyiBhEaCjJEEaZMgT1IcIZBI\n\
    WEIP/F8WwqpSee9BNwEGxqShwr0GXOEhRl0EOKOAUmi9LOh8PYNomIBwTokgkmg1UCo7BBgiICWxt4nn\n\
    5qXVAGhlB8yfAYcIqFrKFBCQVgMITUHKTqGLgLcHYw3f713Ia5ip8v79/QRSwVJK0Ebl3xpQz6K8k+gj\n\
    kMXjX4IeoV5lC1LFtHWhMQKGogWCFNKtC2HrEwIjBMx8xpiG1m3LoFRJhwkU0QQUQNZGwCW8zGAPuYtA\n\
    BiCPUZChOjM2wF5cuM/QXgIZ/A8laKNpBs/S1FIIcIBA60GsFBBIM6YFzcP/EwQyFsuEwSROM3FLUvZK\n\
    syECpA6AwvgwNMDqHuzj002AKeUcTeLcCIC1KoN9lXUR4CKSoxaRGwFoI+axRfQTEMVUSjBq8kzUBllr\n\
    EzREQNERW1Bibr60HBLftkbnQFYjtcgBc8yLL0KKjw50EUiSvQkF77cZZUHcdrnhOZAzSFEIUshmwgWo\n\
    LbwPKdRHICcPkAQ55OZtm5NaZZ9D3QSMfRvNAYHSLo5WxKniEAGfMH5xhNaRWgb5rqJ76/0EiicQatCF\n\
    yrZu+aikwS5k4PHHOD73c0OfxKeXgIefmfT5JEbYbj4vAG8VI5PYUL3LsUTWnUDbEP2kkVECRshtGIcS\n\
    pUlwflxW+giQMRQKPWgEoApV2HvQTYDFKKoBxO3m8yIujxt7FwGBxEjPa9it432O2VbDY/eASXZjJUgh\n\
    bEcf6jYHhu4BU7/HLJjEbt5XLbyfG/uDr5tAAm4ePFfYrm437KNg6CKzlMAHWWy9bOFhb0TDBDK1fSUg\n\
    sJ3d3uWoDF5k5ntEkeDgw+3kbr9KPDn4IgJ//PgnAAD//zOT5VmkEgAA\n\
    "

/-- data.go:2953. -/
def compressed2014 : String :=
  "\n\
    H4sIAAAJbogA/5yYy2pjVxOFX6U501+Cuu7bG/yjDHJmIQPjVqDBtjqSTAZNv3vWPkk6cKQK2xs0MNis\n\
    8q6vLqv0bbm+Pz+frtel3S7vp8NyulzOl6W9vb+8HJbL6fr1/HY9Le2Xb8vty+vpent6/bo01lI8WyU5\n\
    LJ+fbqcVv/r/zz8tbRFiOxLjszI39kbyP6JGtByW5/NnKNFheXt6xQ/L2+mPT6/n89vy/bBXr+xiQqF6\n\
    WUmbURPaqfMP9d++XK63T7+/P11up8ujEMUKsUchOK1kzbWp70LIvyGQpOAFldyoJI7kxVbyJtyId/L6\n\
    Q/7l6b8eUJm5kIYPUFohjxzdPWCEQOXM5q6P1eVIaeXaRJrqLIEKwoIcRSHYVtHm1ixNEVAq1TiUF1k5\n\
    N07N9/LDBDQlqhFj7T1ABQ3QbM94iIBJcZESqpeVtUluVKYJWO1tEKRIew/0FNEsAU/iyUP53gOo0Nx0\n\
    mkAScolKSHsPoEoNEBCBP0wgFa9O9lgdn7xSbYon2E59nEB2y5UDyHZk7yVk3rjsQowRKOzKUX6s9wDk\n\
    MeTu8jNMoGQUqecwQl0JJQTGeYZANRX02GN13whY72GrkwSMiKqzBA/wbQoR0o86nSAA+ZSzaDBH/SjY\n\
    kwbVbY7OEDBiJfESRyhbD4DxPsIAASNBgooHBZoQ4O8t4/sCHScgSaVIsMjSkbWvSsw68ykCKv0Ty9ct\n\
    P5g/e/lhAlo8pYhxOso2J/gB4yEC5omTBVsmdwLIDSqob5lJAo4ARsGYyEfGqpQmadsDEwQ8q+cSzNHc\n\
    CcDNIUV3c3SYAPJjnsMcSepWwqT5PkdDBDKzWrTHCsZc32NOm5OYJJAT9r0HDyhH3hYZSujuAWMEiiD/\n\
    Esvnf7zEXn6YQMEqqyW4B8pRUKVbE/d74OMEKmyEctBhFXauFygODt932DABJpGUIzuNEChSuF1sy6kp\n\
    xFRU2YJNVrdzA8nx+002SoCx6qtwQKBubit3AjpDgIUrR3yZuteVPuDu+Y4TkJzc7DHkHqL0kxJtZnvI\n\
    YwQUyxieLpKH1eqLXmEnZgmAMmt+POcQQXTFweQJfzpDwOAjsob/v3IvUHjdu3tmnADMIrxcEIL70YcH\n\
    bG+YuAcgXzMG0eMWgzysVp8ReWuxmXsA116CY5eAAG83H5pYGtnHLzLjLO4pKlDuXhcTGk0mszcxQpRU\n\
    SmAl+K+zW/qg5n2IMQKle4lYvhOQfg/4Xn6YQB9BHDHerm6UvqIHJr6VgDqOJc+Pvxfq6hgRpfP14e+F\n\
    fv3+ZwAAAP//2oLHhwMTAAA=\n\
    "

/-- data.go:2978. -/
def compressed2015 : String :=
  "\n\
    H4sIAAAJbogA/5yXzaobRxCFX8XM1hLUb/+9QVZZZHYhC3GtgOFeyZF0ycL43XN6TBwYTSWThpEx2NTp\n\
    7q/P6aqv0/395eV8v0/tcXs/H6bz7Xa9Te3y/vp6mG7n+5fr5X6e2q9fp8fnt/P9cXr7MjU2IVNNVg7T\n\
    p9PjPOOffvrl56lNQuxH4iP5TNbcGpWPRI1oOkwv10+oJIfpcnrDX6bfofHh7Xq9TN8O6/KMn2uNyrPO\n\
    VJuV5nVVXn+Ufz3dHx/+eD/dHufblkL2mqpFCkIzK/4f9rBSoB8Kl/Of0fpF1bhoWD334zFsQVfV+Z/j\n\
    +Xz71w0okRPRtoQcSWfBBnrxIQKaWVkkKs8ykzaXRjJKwJRUPbhCUCh9AzgjXl+hXQSsFHMK+MpRfObc\n\
    2But+e4n4J5Ljq6Qdg9waZSariX2EUiSCq5oVB4ewA5wPjLsgVTMlEMFeAAu09J0rbCLQDb4QOLq8ADW\n\
    3xEPEyhsVYy3JQxfNzFUhD8S/38CpTDBBFH57gG42BvLqvxuAlWLugdnZN0DXBFyjetKYQ8BJAQlobC6\n\
    pBkH72khwEMElDIzlbwt0VWWI8KXRwgoq1HiIEf9yDwzN03NdZAArr+IW6xQZvKeE7ZW2EVAHC6w4Ab5\n\
    kkKlCTVb36D9BBRBwRwQSMi6HhPCzccIaEnmJUhplK8zp+7i/tCPETBLmlJwRunIae4xnZ/PaBcBx69Y\n\
    eDyCiMAjhkZlfTz7CXghzRHk3AngqRTBN0QgacmcgpBDebyT3CQ1WofcbgKZqNYcKoAASVfgtcIuAjkz\n\
    UsKj6iAAhy0mGyZQVKtbiiR0iQkEtaUhAqWiF9LgfAoUOmDsQIcJVE8Wxmg5snUP+EaM7iFgJJmrBhe0\n\
    HEVmRJDK8zu2m0BfvFoKeiFI1P6QKUxsIwQMXyYOUqgurdbykvloCmEgkOQetNN1mTh6BDWlEQJSJBGF\n\
    6xeel079OUX3E9DOQAIPQKL83bAPeQBXtEqp2+8kU3/okXBUGo++xHgGquW63a1AoRPgpZ0e6YXMNcPD\n\
    4frR6yJFuwfW699PwLH+qJnrEnl5avx5aN1HANdTsYvt8twHPpQXpFAenAcM1wft1nZSQ6F3W/AAPh+Y\n\
    B8AWfwQZ16vXGXClLC/x2DxgxaBRt00MCbRbuKToRn1oJkZxKR5YjJeR+3tGdIuNEahFaugBWQgQBr7n\n\
    K7SHAMZh5xzMA7xM3Lz0ujQ8kTmTcQ26Uf4+djP6iKUb/W8Cv337KwAA//9RAJP4oRIAAA==\n\
    "

/-- data.go:3002. -/
def compressed2016 : String :=
  "\n\
    H4sIAAAJbogA/6SXz2okRwzGX2Xpa2ZAf0uleoOcckjfQg7GO4EF27OZGZPDsu8eVQc20DNKamsxGINB\n\
    auknffrqy3J9f34+Xa9Lu13eT4fldLmcL0t7e395OSyX0/Xz+e16WtpvX5bbp9fT9fb0+nlpKIqGZACH\n\
    5ePT7bTGv37+9ZelLQRYjoBHoBW0MTaBnwAawHJYns8fIxIflren1/hjeXm63j78+f50uZ0uy9fDPgNx\n\
    dbGSZUBYAXsGLLsM8C3D2+mvD6/n89uj6F5LlZpGLytxI2tUd9HxW/Q/Pl3+swBWd69pi0h6AVIa7VtE\n\
    /6YIDFkFQm4s+jg8RYYVogJvoLMExIUkYxwZ6ooSgCP2DAFVIjHMoqOuYE2sKU4TKFhijDhLQbRijfY3\n\
    5ikCpRq7JjPEnUDMEFLj/QwNEzCpVdXTDN5HSLWpzxCoUFBK0h7uBNAaSKN9e8YJRIdEPG0R8Rr96Xu8\n\
    b9EYARc2pWSG+Mi4YmnBWGKGcIZAAaDKlOyAHMF6AaTbEuP3EigQPyKSRUfpKhqNEdlFHyZQkCEXauk7\n\
    AKUXAPsChggU9BrRLQvPodLSONDaLAHSwmDJCOkRQqlhuwN1hgCj1pDpLDpyl4gQUvRpAlyLsict0iOF\n\
    TFBcscb7Fo0RiFsmkO1AhPcV4/P5B3ZAwdUguTQ9SWfcb5nOEFBDB04IlCPGgHrDQDxPoAhByVSoHAk2\n\
    FZKm+xEaIxC9iUOTVkChEd7PjO4rGCZgsQIEiVJbLNpWAG9K/f0EKtUwWskE2UYgrgzdT9A4gerFMTNz\n\
    kcL7qVRvXKYIxHwKajKh1gn06xKXeD+howQM0KBmMlq736XNzMnMHYjQysxJe2r3un2CaPO6cwQMFUlr\n\
    0qJIEWYOul28W+IhAkbgsWaJyNUjbRohMn8HjKwvcbJl3t1WFNCXeL9lQwRYCGvm5bw7rdgwhXuJGCcg\n\
    oFRLWgBuh6x73n0BYwTiUsavNHy3Wl2CGsyqUDitCuaP3QrC9uLAfmlw71aGCGg4CcM8um8vSr2PPk4g\n\
    RDpuzeMhjRRBIFJ0LzR1iePrC5ulFYTVCsDdkO4rGCZgVaKCx3cgMoTbCsfO3nTv2IcIVJXK5fEOIG5e\n\
    17c7MP0mNkfGgmmKMLwxP8qT7wFzQ6Pk0Ef4sFpQG/9z6KdeZBVCJ9wey2jPsOlEtIn3r+4RAhURUDj5\n\
    fuoEwgvFnb/7/mECFUsIESYF0PbkiMglXpUzBCpRTFHiFSM8bRqhZTszcwTIXSRR6p7B+4NGZXsP/C+B\n\
    37/+HQAA//8AQLSIAhMAAA==\n\
    "

/-- data.go:3027. -/
def compressed2017 : String :=
  "\n\
    H4sIAAAJbogA/5yXzWpcRxCFX8XcrXWhfvvvDbLKIncXshjkCRikGWdmRBbG756qC3agdcu0GwkhkFRH\n\
    3V/VqdNfl/vb8/P5fl/a4/Z2flrOt9v1trTL28vL03I7379cL/fz0v78ujw+v57vj9Prl6WhFE6iKeHT\n\
    8un0OG/2o9/++H1pCwHmFXAF3bA2yU3wI0ADWJ6W5+snq2R/cjm92jfL359v98eHf95Ot8f5tnx76iWE\n\
    CCpSJIG0ITbWhtRJ0P8SdowPr9fr5ah8SQLxCbBuRPZ7jfoT8I/yL6efHkA12QlqpEBl88KlYe0U4IfC\n\
    5fxv9P8nLFhLPq5OK8gG0nYI0wRSzkxcIglEPwBz0zJFIIskRQ7LF+8hB8yzBAqSfWikQGlDtcINdYZA\n\
    ychG4bg67zOAfj3cX884gcoM9jWS8BmQptKkb6EhAhWANMXlCTZMDbBRX36UQIWUak0pVLAZsP6pjdJH\n\
    0/lFAuYOYmMmx9XFBHYXAruhrvowgYqlQtVgzGSfgdygNsydxBgB0poAgg4VdyH0qg20Kz9MgM2DzEcj\n\
    BZ8BbmguhDMEOOeaKhxXVydgfMWqwzQBEaXEQQvpiuBGLdZFfQuNEVBUwZ+Urxvsa4b78sMENAtqCRaZ\n\
    rqQbQZPUiGYIJAdcAgLJFo3zteuBeQIZkEsOmtQkqruQ9Sn2TTpGIJtFMAQdmlbMG5ITgL5DhwkUyqgp\n\
    2DRpJfEuZe+iGQK2CIAhsAhf9d5BivsmniRgPcSMwRVlJwDqUYL7KxohoLYGmEmDTZZXTN6hlPdNNkPA\n\
    FAowSTBleSVzavC8OLMHFFCoEIcEeN9jZBYxS0DBgkTVFEgUU/FVY336DvIYAcpaSwS4rKgbWBpN1kaz\n\
    BJgFqAa7sqyEe9oyq+t35RABru7TQZKw6tag1dO0Z91JApKKm+mxRLU53mwALPPqjAspKBUBCO6nrsi+\n\
    6Ck16e9nmIAWyyrRDFRPW5Aa+yqYIZCsOxkCAvV70jKXmCeQiUrF4wMgfH/04dwmtvI2AMTHgK28h112\n\
    F3q3ZoYJFBHgwOdcobrP+bLpfW6IQDUbqvXYIqw65c0syD7fRcVxAtVeZJCOISPujz5tJO8D+xABBJbE\n\
    cJxUrLxHLXvwlT2pzLwHFNHCLudYoXjeFWraK4wQQLQ1XyDgi3vWtbBuEGZfZGoNislOcSxB+5NDPfAy\n\
    TBGwAbMXd3A/5ATMhdTS3DQB1lyiNx/ur253oYM33xABW8SWJo5dFPcXt+0BDxMySuCvb/8FAAD//3w2\n\
    P46lEgAA\n\
    "

/-- data.go:3052. -/
def compressed2018 : String :=
  "\n\
    H4sIAAAJbogA/5yYy4rcZhCFX8Vo6xbU7b++QVZZRLuQxTDugGFm2unuIQvjd88pJTggdZnfAi0MHk5J\n\
    9VWdquqv0+39+fl8u039fn0/n6bz9Xq5Tv3t/eXlNF3Pty+Xt9t56r9/ne6fX8+3+9Prl6lzYqupNWmn\n\
    6dPT/bzgv3757depT0JcZ+KZZCHpkrq0j0SdaDpNz5dPUJLT9Pb0in9MfyLGh9fL5W36dtrKJ0ukTUP5\n\
    ugjkc1fdyOt3+Zen2/3DX+9P1/v5+iBC5pSs1SgCF/8Arng2Eeh7hLfz39H756piGr6/2Pr+tH9//j89\n\
    n68//IBilCTnKITywtqldMuHCFToNAsAy0xl4dRT6rYFPEygFqmVOYrAaRHulHviIwSaFtUcqosuVDu1\n\
    Llv1cQKteRh6HELXHqCeUEV0hIBQapaKhfJtYe4oo2QHCQhLE0sBY/UeQAmxdd4yHiEg3CiVJJE6egAV\n\
    pCgiOUpAxFqruUQh/u0BRQ+Uj8Q/T0C5CEU1ZO5CqCEvUt7IDxPQatoin7OZs7tQaj3pJsIQATNvgaBA\n\
    bRZxFzJ0GG3UxwkkAoIUFKnNSguU8QFshwig/uHSgXxaCaBCuetWfphABoJWgx5I7kKMHLXV536eQG7I\n\
    v4bqIECG9Hfdqo8TKJk0WzDIEKJ5m2HUWD1EoCoTRfIZz8IN6e+0lR8mUBs3poBxnlkXf/vUact4iABm\n\
    GIcFmmchd1GY9K6ChgkoYZnIJYUhUKRwOYPXHSGgVLOmHNRQcQJwoST7Ch0loIxti6MPKE4AXYYe2H3A\n\
    CAEVUiINTBrqzfkm7Wlr0uMEpIi0qM3KLMVXCXgdb1M0RkCNcmmBj7rPeQ/g2fnoMAFtFTtvkKM6MwYZ\n\
    uY3SNkdDBLBGYF0PegDq6xwD33S8B9DGVqImrrNkt9GEaXloDijeXjQFBBpmvVeotnXVOkYg+0kQzfq2\n\
    bltIP7psO+uHCBTWVnLQYW29Nqhz7rTtsHECpZpRNMjaLMlTBBfa2cQYAeBV+NBDeSZfdlGhVvCnRwlg\n\
    Xcy1PGbsEZrPSkTYddkQgVZYonsG6pz/4yuHJ7Fh0LccjBqE8IXXV9H9qBkiYD6HOfAIyPuym7vhC8rB\n\
    e8A4U07l8cbOvN582XO029hHCJhbdA7mGNR90zIv0N1PBuMEpPnp/fgmRgg/+nCxYhQcuolN0WVSHu9C\n\
    kPdll/we2P1mMEwACIpSQGC9uql4BDtEwCrW6RJU0HpxYxfyOb+toHECCZsESRgCCy97B++LdIxAppIl\n\
    zg+WXZz0mvf5iQj88e2fAAAA//9FBuvVAxMAAA==\n\
    "

/-- data.go:3077. -/
def compressed2019 : String :=
  "\n\
    H4sIAAAJbogA/5yYz4ojRwzGX2Xpa2zQn1Kpqt4gpxzSt5CDme3Awoy9sT3ksOy7R6qEDbStbG3BHAZm\n\
    kLr10/dJ6i/L7f3lZbvdlna/vm+HZbteL9elnd9fXw/Ldbt9vpxv29J++7LcP71tt/vp7fPSUFJWLljp\n\
    sHw83bfV/vTzr78sbSHAegQ8Ql4BG9Um9BNAA1gOy8vlo0WCw3I+vdkvy3n768Pb5XJevh720TWlwipR\n\
    dEwr5Jay/esuOn6L/sen6+3+4c/30/W+XZ+kKJC0MEQpCFeQhtoQdinovxRWpOgNSiaWxGF4XQkbUiPe\n\
    hedv4V9P//sClTFRDTLQEZJngNRkn2GEgAAgcE1RdKSV7OFz4zRLQEAqZi5hirqi2NM3KTMEBLGAFIzC\n\
    U16xd2jCSQKCpRQmfZ6BXQOYm3UR6QwBEqmEQXnYNYDgBB7KM06AkUlKoAHuGsCW2IJPEWBNmUpYHyqr\n\
    tadD2NdnmEBKprEUuFA6gqzgFtTIXAh/mIBAlZoDhaWuAXtsQ8y76OMEJCtxpIHUNUBuE1h2KcYIZEbF\n\
    nKPwpgHihtXaaBd+mICaTwAFKpPuQtySNsAZAuouGjWoOAGw2vzToJMECiGXGpTIUhQ3OmtS3pdojIBZ\n\
    REka1sddSM1EG+/rM0ygGmbU+jxDNqG5z1mZpE4QyIApm8Si6AgrGFzoc2COQAbNQBpowFKoi5hxUgMZ\n\
    k6WIeigfSdxHU3nsoVECmcwnIFol1IaN+8S/q8SPE6Ccq0ablkWvzldsEu89bpwA2yDAqEn1iNk1wPWx\n\
    SccIJEATctCh6gSsPa1EtO/QYQI2ZypG+2KxhatPGtOAzBAQrLapBOWx6LpisfL3TWKSgBQl0mBUliNa\n\
    k3LXgE4RyOJjJqwPcV+1ymN9hgnYmEFbGqMMDN6lXAzzDAFVNokFHVT7tdE3ibTvoHECJbEXKUrhJ4c0\n\
    lr6wTxCoSDYmAxXXI9kkY1+1HlQ8TKDmKqSBU1fftnzQa5O9U48QUKCaoDyPjuCblhmcu+j0HFD0m0Oe\n\
    t5ClQO6TGJrsW2iIgO9BaE4ahbdl1ySWrEn3EhslYApms7rnKvMMpTOGx6t1iACVzBDcA4i+afk9YB00\n\
    fQ8ouxGlADL6uuUupI32R98YgYQ2yMpzFXv42m9i2+bq5D2gdtJDCZzaMvi2Jc0Wloebb4iAnRukwS6E\n\
    /eKG3F10+ibWjKQ5GPbYz27/KpEeP6uMEcjKvnCF4av7qNTu0nMElNl+AgL96vYXkL5KfJfA71//DgAA\n\
    //8FYSiqoBIAAA==\n\
    "

/-- data.go:3102. -/
def compressed2020 : String :=
  "\n\
    H4sIAAAJbogA/5yYzYojVwyFX2WobVygn/un+wZZZZHahSyaHgcG+mdiu8limHfP0V1MoGyFmgteNDTo\n\
    uPSVjo78bbl+PD+fr9el3y4f59NyvlzeL0t/+3h5OS2X8/Xr+9v1vPQ/vi23L6/n6+3p9evSOddGUhrL\n\
    afn8dDtv+Nevv/+29EVIaCVeSTdKPZWe5ReiTrScluf3z6jEp+Xt6RV/LH99uVxvn/7+eLrczpfl++lO\n\
    orTEliIJpo2ti3ZOOwn5TwKP8en1/f3tQXmTUkhzWL5urKjaNe/K64/yL0//+wBmJJI5UpC0CfeUOvNO\n\
    gX4ovJ3/Cb5/o0Kg0B5XF3w2QnXt0mYJgK9qqUGLIGEb1a7pvkWHCDRulDlZVJ7zJtLBmGySQJNUUS14\n\
    hWQV3Th3VUCYIaBcjTkgoE4AXz63rvMEtNbCHBBQJ8C1pzZLIGlm1YCArlw2MtTuOk0gUxKuJVLADEBB\n\
    IFJmCOSqJUculDBkG3PHkLkL8RyBouiQBg8AibaRjhaVncQxAsUoE9eoPMMjtGf4aN2VP0ygFmpNKFLA\n\
    DOABpKL2TuEQgSaYgWjC0qrkHqdtTNgkgdZS08io80rVIac8ZmCCgKWSzIIpzk4AHoEWcZskYMTFuAVT\n\
    lleBT2CCrSebIGDUyJIEM5CdADaxUpfpGTBWOEXRxxIFKptQZ8G2mSFgqGNAEJVn9TUjqed9fw4TkAoT\n\
    ioa4rMKukLBs9kN8iAD8QdiCCUP15h7HBRCmCahJEgtsojoByh4l7mziGIGUrZQWzEAdBBCEeGSJOQIZ\n\
    aStxQKCuQmMG9N5GDxHAJlCRsD0yspzv+X17jhMoqZLWoEXNAy8IZxvLfoJA5ZJSCcszj0Xvu36WAMJi\n\
    sshGoWC+B3wG9jZ6iACSStMo67ZVsvNFezzrThJAmsY9EBidjcBbxj2wN7pjBKwqUbQHbJwbMNE2vQcK\n\
    kSbCpIUKeEvFL447nztAANWxh3N0LtlIWuJJQmc3cSHPKylIo+w3jQd2QMgzm7jgWDJK7fETsH/GRQMX\n\
    2j/BYQKCNFQ1Vii+yFTGSfnzBDS5kz52IVT3ayP5HuNZFyqE7iMQPX6FIKHsEhkt2gf2YwTQfZX8eAaY\n\
    Peyym+j9RXOYQMYSsIgA+82HRUawiomLrOAkFpz0YXUkLf9VIt9XP06gVLxEQeCFhMct81eIZn6VwEmv\n\
    rbYaAJZxbuANrcMj5ghUK4hDwRDLyLsFJoc2zRBoGAEO9gCqI2nJ2DK6/83jOAGTsQoiCSegI/AeIvDn\n\
    938DAAD//zeZ2iEEEwAA\n\
    "

/-- data.go:3127. -/
def compressed2021 : String :=
  "\n\
    H4sIAAAJbogA/5yXy4obVxCGX8X01mqo27m+QVZZpHchCzHugGFGciQNWRi/e/7TCwdaXcPxAS0GBv7q\n\
    U19d/vo+3d9fXtb7faqP2/t6mtbb7Xqb6uX99fU03db7t+vlvk71z+/T4+vben+c375NlSOVIqFwOE1f\n\
    zo91wb9+++P3qU5CwjPhFxcqVXPV8JmoEk2n6eX6BUp6mi7nN/wxvZ7vj0//vJ9vj/U2/TjtIjAFNg7J\n\
    i8C6UKgkVdMuAv2McFn//fR2vV4O1JlTjP73Cy3ClfT5+/mn+t9fbx8+gDMCfBAiL1wqH6RI/g8BDN4L\n\
    xCKpyLG8zGQLp0bAZJSAUiIr7EVgbg+gXJlHCGiKFCy66mVBbgwB4jABM9aS3BCSlvb1qNN9iD4CVoqp\n\
    0LG8bj3AVQXCowRCVCZ2GGvrAaYqqNI94y4CUTUlctKjs4CvVeNq4wRiCcnI3BBbDwSI22fk6pcJpKAU\n\
    g5Mf23oAqlZZdvLdBDIXS14J2cyytCEhNcRdhC4CuZAQOR1mbQqhQFvueafeT6AYijQ7BGzrAauqgwTw\n\
    9YkD6bF8AONFqAbUkA4SEEqhxOJGwBSSliC8YYCAsGFEf6BemjorfqMEBFopemM0zBIXlopOC3vIfQQE\n\
    ZZSiAzhizrUakvgMuJuAYs2YOYsszkyty4JVCiMEtORsXoFCPbcChbrtv7+fgIWILnNDiLUpZOA81gOB\n\
    k5ZQjuUTdv0iAAynUkYJhJxKjk6VpkYARgjr/qnLugjEwDEWx2lBPTW++DWnNUggUTExNwQItDGaquxD\n\
    9BFISZMVZ0qnWbdNBjvB+yndTSAbNo3nVjJ+LQIWmY3sASlklL0ezjOHhWNthnS8B0rb9uo0cZ5FFky5\n\
    VkX7Ju4ioASzmMjZxHnWbZNxM+yDBJQKFoE4Y7QAc3NbQZ53ZQ8BhdUKMTterjSnhfTDCwmNElDhLOQN\n\
    utLsFjb90aDrIyA5N7/uypc2IwJWwegeUA2c1Y4jMDW/iyGHo+zpAV0EjAoYHBco1Nu9Z5gP27k0SMCS\n\
    taPMCwG7hQoNGKNDm1gDvER0CDT5vN2U8Tk/3QQi4WaS4ynEzc+1CHiD7B17F4GIDBWnh5m3e0+qoYL2\n\
    10Y/gaQsmh0C3OwWxkQoG4Ffv8g0U3O8rjzMLl4gZbNaQxeZZhzdOR3PCd6ubkL9wFHvb74uAgXl6d0z\n\
    vF3czeim53uvnwDcVo4puyHKdg8kTIoRAkYhcYluftq5IZsb7b2J//rxXwAAAP//T0kfs6QSAAA=\n\
    "

/-- data.go:3151. -/
def compressed2022 : String :=
  "\n\
    H4sIAAAJbogA/5yYy4pbRxCGX8WcbSSoS1f15Q2yyiJnF7IYbAUMM5IjacjC+N3z97Fx4Iwq9PTKhoG/\n\
    TtdXl7/0dbm9fvx4ut2Wdr++ng7L6Xq9XJd2fn1+PizX0+3L5Xw7Le2Pr8v988vpdn96+bI09sSciqV6\n\
    WD493U8r/vTr778tbRESORIfSVYuTa2l+gtRI1oOy8fLJyjRYTk/veA/y/n0z4eXy+W8fDu8Uc8mRBSq\n\
    167O2oR26vxT/a/P19v9w9+vT9f76foghCTX5OEDOK+izbjR/gHyXwgkKXqBMhfOJZIXW/H5SZqVnbz+\n\
    lH9++t8HqNdkFuSoB1mpp7/xPkdDBJJKUdZQvfTvR3pMpwkYKeXCUQj2lb1ZbYmnCJibeZZIXnQVaZqa\n\
    yiwBlyRe/XEE3XogN0Wh+gwBr1S5pEidaWVqyZukaQLZSiHNYYiyUkaPNc1TBAoXzx6+AD2ACtX69gXD\n\
    BEquKVnQxGnrATwAENDE/G4CNRVAsFC9dvVUmthOfZiAEaslC4o0bT1Qm+WtSPndBIwyG9WAQOo9wH0E\n\
    NU47+VEChu8nTIsogtIq3BSFuo8wQgBLwCxrMIVsI8ANbcw6TUA8Y4wGBKwTQJGyNZsjoII5l4P82FGk\n\
    A06YQtMEtDKpBmPUOgEwVuSIZwgkZ9UoPX6kvPL3LbNPzzgBUM7AHIXgtBWpbFNogoBhx3C0yfwomBEJ\n\
    ydk22RwBDFKWaE4gAqoUu1LfzokhApmdKNoyuROAOqdmPk0gZ82YdVEI1l6kWGS0DzFGoCiazAMC+SjU\n\
    awgRZJpAhZWoEj5ASveLZk32DxgiUL1mTLrH6gVN1gsUq0D3HTZMwEm8cJSicmRZCQ3gjfYpGiLgVIrm\n\
    aA9Avm6b2OenkDOshHDQA+UoqFIMCfi5mR5wESmmgdetMBO9QAmIaZqAwAnVaIzWH3YLq9L2kMcIaDK2\n\
    yGrV7dzYhhzvh9wwgcRJSrSJa3dbPUJqNLOJu1d0DjqMqROAKD/osHECpqmU4B7oIWq3EnhAmiPQe6wG\n\
    LQZ5EOg35YMWGybguMhqcLUiQr/5ePOL+yodIpBBN/JCzJvX9T6k5y8yz3C76gFk3o4+fLfg6pi5B7x4\n\
    l3/s1iHfzS6WJPbA/uQeJlAl4bAPSoh/3Hyw07I/KYcI1MKV+bEXgnp3WqkTeHNRDhPIlLJgkj4OsZ3d\n\
    MCuYpGn/s8EQgdx/lMA/kXw3u6Wf3LI/+EYJZEYNYdlHEfrFQRhym1t5N4Es6nCjj2cc1EHg+z2gwzfx\n\
    n9/+DQAA//9K7Tr7AxMAAA==\n\
    "

/-- data.go:3176. -/
def compressed2023 : String :=
  "\n\
    H4sIAAAJbogA/6SXzYobVxCFX8X01hLU7/17g6yySO9CFmKsgGFGciQNWRi/e86Vxw50q8ylB7QYGDil\n\
    q6/q1Kmv0/X16el4vU7tdnk97qbj5XK+TO30+vy8my7H65fz6Xqc2p9fp9vnl+P1dnj5MjVOWcmSV99N\n\
    nw6344x//fbH71ObhET3xHtKs2ij2tw/EjWiaTc9nT9BSXbT6fCCP6a/UePDy/l8mr7tVvLZSqEcybPP\n\
    JI21SV7I60/558P19uGf18Pldrw8qGCq5kpRBeFZCN++KS0q0M8Kp+O/0fe3ylXEQvUyszcUEFuo8/8/\n\
    z+fLLx/gSbhYUEL25DMXfPtmyxJjBBIIcwRY9qwzp0baeAl4mEAqOVULKwjNlHsL0bLCEAE0kHMNOgjq\n\
    eabSKDVddtA4gQLGNdXHJfDJM0szfOomAqUYEAcv0B8zQI03z0AF4URBC2mfAc5N0rqFRggUIs/4hUL1\n\
    OqN9FB0kH4k3EYBDuBctj0tYdyHCBOfGZVFiiEBhzZmzRvJ9BvDzS3NdyI8SQAclYwsf0GfAMWLNlg8Y\n\
    IiB9iFOsnmeRJtBdqo8TUKUikVH7DxdCC+VNBLQS55QieZa7j1Y06VYC5szw0rBC7T6HPeDLCkMEXIhJ\n\
    AovwTgDq2JTdIjYS8OJQCx6QwHkma6brB4wRSCbuFsoz9T2p8g4CmZKyB5sYFcp9iCusbguBnJOXHBBI\n\
    e0l9Dzg33k4ADmQWRYkMr7vvAbpHiQ0ESnXEoWDEcidAfcc0Wo7YMIGauOQSMEYFdGntTk1bZqCSipRo\n\
    D+S9+D0qlnfsgUoVJkrBAwoS19sDVk06RADilbzG8khz3F1oNWKjBCr2fMmRT5Q9p75ptKx9YoiAlMxM\n\
    HKmLdXUvWAWbCaiZFwnCXNkr9ybFJu5hbgMBI8UYBD1U384NLDNd9tAwAcsmSCxRhe9pC0O8esAQATdm\n\
    9oBv3Yu8uahudqHqtcBFA8i1x60A8hiBlIjYHsszdQJsdxdayg8TwE2ZmB6nFVRg61ECm3iVVoYIIOwC\n\
    wuMsB3UQwJrEucTLLDdOANveUnps1L1EmZG1xO5H6wYCFVHUgxFj7lELJto9YutFVmvpd19YAXkX55jk\n\
    9c03QCATGY6yYM9DHVm3N2j/bLzIMrIWwmIwA71E7g9A4jLecJFBHueGc9Ch95MbSQVZwss2ApnERKsE\n\
    LSQ978Ln4BO0vPmGCCgxYxeH6rVPGDxOlt9/nIAmzSLBmH0/u6lvYtMRAn99+y8AAP//btkA7KESAAA=\n\
    "

/-- data.go:3200. -/
def compressed2024 : String :=
  "\n\
    H4sIAAAJbogA/5yYz4obRxDGX8XMNRLU3/73BjnlkLmFHMRaAcOu5EhacjB+93w9cRwYTYVxQ2MMu3w1\n\
    1b+uqq/2y3R/f3k53+9Te9zez4fpfLtdb1O7vL++Hqbb+f75ermfp/bbl+nx6e18f5zePk+NM5lq5ZwO\n\
    08fT4zzjRz//+svUJiGxI/GRbCZtKs3TT0SNaDpML9ePUNLDdDm94T/T6+n++PDn++n2ON+mr4enCDWb\n\
    FI8iMM/MzUsjX0Wg7xEu578+vF2vlw11dyfSWL3073ectTp/V//j0+1/E0hCLkWjEOIz5+bWTFch5L8Q\n\
    wBBlkConorItLzizaBMIl1EC2bkmszBC7RGgbTZCoFD1LMELkiOnmb2RNFq/oP0ESs655BqFEJtZmnLj\n\
    OkSgWq4uwRtSnJ6B9DNIgIkSawojMM1U+x3ZSA0wJSv4N1TPM1nrRUajBJgVZVZzFAI1QLkRN80jBBg6\n\
    OXuQQWe8ZOBLBjxEQFBjiTiMUGaurRcaryLsIqBCxVLwQO3IPqOA2ZrUlfp+AmjTSeIQqAFcvEN8HWIf\n\
    AfMkJcu2vKPP9RIT9DkZJeCsJXmQgHcCYCy2FPGPE/CcFU8oUgcBfL/Vpj5MIFkW9/CKBG3CMGeer2gf\n\
    AbS5Khzej9LMpTGG8fp+dhPIKedEQQIJZ4a8oXzXCewiUNREazAm05HxQBPgYhgPE6jEJWmYgKBNSGOC\n\
    XxkiUBN3RxHKl1mkA6b1G9pLAEoCsxK00QzMfRJ7xa8OEBCqTLUGcz4fWbs6asBtlICwe8cQhZDFzHXI\n\
    60a9i4AI5oxYADh3At3N2fML3U0Ac6YP4+0Ipftd9IneqUfmgKhlryXwcuXIMvNSA1aGCRihS3DwSBGi\n\
    LoOsPDe6fQQsJXMNMxD0COryvs5gNwFXKSmqstrdFvV1Y/FCP04gkVqhoMJq3za6UYH6usL2E0hJ8IaC\n\
    Rle/rRyaln1ggADqWKsHBOpidlFf8LvDBHKpTkEbZepua6ng5za6i0BxjPnArEMdXrerp+c5v58ArJBZ\n\
    3m50PUT+16ysG90+AjWjyQV+GvLdasGtOybNIAElSy7BrGT+5rasj/uBfUDh1hkbTaheZ3w8COjwTqx9\n\
    b+W8XWYI0Q0vw+0O7gMqijZRt2sA8rBatMj76E6sij7BwaRh6QTQJDDuRUYIaIJdTAFfWbYN7w/06U8G\n\
    +wkYbkg9qAHpBP5ZKXW91O8jYJW81u2tHvKwWricpZBHCbjXnIKFBhHgd2UpYlsv9VsEfv/6dwAAAP//\n\
    CkOjywITAAA=\n\
    "

/-- data.go:3225. -/
def compressed2025 : String :=
  "\n\
    H4sIAAAJbogA/5yYT4vjRhDFv8qiayyov93V/Q1yyiG6hRzMrAMLM/bG9pDDst89VRqyAdkVlAYfBgZe\n\
    qfXr9/q1vk2395eX0+029fv1/XSYTtfr5Tr18/vr62G6nm5fL+fbaeq/fZvuX95Ot/vx7evUsXIhqKZ6\n\
    mD4f76fF//Xzr79MfSIgnQFnKAtx19pZfwLoANNherl8diU8TOfjm/8x/fHlert/+vP9eL2frtP3w8MI\n\
    g0pFshHIC1Gn2kU2I+jfEb6MT2+Xy/mJfJWGypjJEy4EnakjbuT5h/zr8T8XYKhCbOmEtiB1rh1tMwF+\n\
    TDif/sqe36pQYXiuTjPoAtbBIcAwgeYMpJRsBNKCri+dyggBAedrlq6AYEHfQNJlu4K9BAQqcAFOJ9ji\n\
    wlK68AABQapm2J6rc3gAS2fu3EYJCDZW1oQAzygLlK7adYyA24uREhfzTA4YwwOwdfFuAkxSnHM6ocWE\n\
    0K4jBNxiTSCJCFk9wN0hRETgGAFRYOOEgEQKuXJkXdmM2EdAsTUpSQpJpBCsGSG4kd9NQKuRAKUT6ppz\n\
    3Ik2E3YRKFwip5+rx4AFpaur12ECFUoDSwjomkK1q2fdGIHqNpAsR3VNIY4dyjBKwBgVSuIyDQIg3X+k\n\
    IwSsESEmHihuslAX9JweJtAK1ZadA2VGjKPGY3SMgAKFzZJz0uUtdqj/1AYJKJjUggnjMpOuOcePjPcQ\n\
    UBQ/JbNzoPpBszoMOrZRAkpYW+MEcp0RFvIF2CPkfQQcb0NLUqgGAVflNp5CymzCkuREnUniHSE95sQu\n\
    AgLqfTTJOPOyFR52D+A24/YTEO+iRMkCfEQLD3jhhe0C9hFQJqTMYjZjiYMeP6rWGAFt5EmRTiDPiXj6\n\
    RxPvIlAKeZtOHGYzY6iTPjpsPwEHYEWSTdp8Fy3YOsLjJt1HoIaJIXFxi6oVGaEdti7eTcA8JzyHsgkf\n\
    Nw6v0zxEoGEDsGSDtpkhuq6ry/BJrM3AGj8fgRAE4qgJG4wQ8KJeG9XngF3eq1YA9vczmkLOV5omJ41P\n\
    oDUnfJc+nDR7CJRIiUbp80fXLV6zOmxvlLsJFGIxS0yMGIU3FgCDN7LiCaFcE8AYVQu0U/NCOngf8Lro\n\
    OdfSBXjb8pzzLYTbBewi4LcZRnvetELd1uuSn2PDXyWK9y1ATLYQReH1ywDq46V+HwEV83eUyuNHRpC/\n\
    olEC3lTSNorrrdu3vny00f9PwCOaSvLNI9T/CWnePn9K4PfvfwcAAP//9k0cAqUSAAA=\n\
    "

/-- data.go:3249. -/
def compressed2026 : String :=
  "\n\
    H4sIAAAJbogA/5yXT4sbSQ/Gv0roa9ygv1Wl+gbv6T1s35Y9mIkXAjN21vawh5DvvqoeyELZWioFfRhI\n\
    kFz6SY8efV9u7y8vp9ttqffr++mwnK7Xy3Wp5/fX18NyPd2+Xc6301J//77cv76dbvfj27elYk5ZWJLq\n\
    YflyvJ82/6f//fb/pS4ElFbAFXhDqCAV9TP4H7AclpfLF49Eh+V8fPM/lj89x6e3y+W8/Dj04QskQJUo\n\
    PMKGWsUqSheef4Z/Pd7un/56P17vp+uzDDmpWQ4zlA2tKvt/7TLAzwzn09/R7zcBMuAoOqXNayOlEnfR\n\
    8d/yfL3+5wPMChdOz1OQZ9mIqkPgNEMgQxKEErzAw9uGVMUf0b9glEBGJsslaCFaMbcMwBX6FhohkNE4\n\
    IVsUnaRFp1LVZglkUs6m9DwF7zOAlb1JaYoAExFYMAO8Im5gVTzD7AxkLoU1YZjBNsBKqQLOEBBJiVNY\n\
    HtI2Yf5RX55xAgqWAOB5CnHOm/cPciX47C/5ZQKaLRmF4V2FQKvqY/hhAkkoFS1hhn0G1GW0dBmGCDSN\n\
    AAgISJsBLw/zTgDnCLiKJopkQpsKoavch0xMEHCBQ6JgBrSpUBM5diGaJVAsYS7BHtAV00a4q1CeIWDK\n\
    4joRRSdufJvM6SyBAoSZINgDuvKHTCT/ZggUMCQrAQH/ShO5Vp9ZAgXFCFMwZWlFbV2qrkL9lI0QKASO\n\
    WAO+aaV9TfoMa893nAD5GIiFD2CXCahafBlPEWBRSpEXyv5t5FveM0wTcLNCDEGN8orSzJzo3AwUSYwm\n\
    gcblRmAfALdD0wSUWQsHi8xTWLOLnCviFAG14lYlELnijFuHtjbqRW6YgFvpRFGXlhWpyag/gKcINDNk\n\
    kZMoK0H7/S4R3HfQOAEfMsiRnfYUpa3K5qj7B4wRKOpeVALA5stsA7dybuh6wMMEDCwTB11qu9uSSnlu\n\
    ExfbN32wB6xdG75l3E3T9B4wEEGhsER+cmCuCo8lGiJgCMyWn78AYTe70rwi9i8YJWCYJAs+f4BnaDdf\n\
    ag94GOIRAkYsAPi8QVv00srjTuJhwsYJ+J7MFlgJT/Fx9OGHlfj1e8Dcqmvk5hD3g2/fA9D76WEC4svS\n\
    PXWYwe+B7OE9ycQ9YOKEMeKLu9fFdhNzf22ME1BlwrhE7eiTtuwfSjRGICGo0HONwP3khtRObiqzBJJb\n\
    CU3Pr1bcr+5mJfzw7q/WIQJZSsISRncCbQ17g07fxH5v+NUUzcB+dreT0g3p3Az4oszRnvTwbrV8x7QS\n\
    9eEjAn/8+CcAAP//iWdWpgMTAAA=\n\
    "

/-- data.go:3274. -/
def compressed2027 : String :=
  "\n\
    H4sIAAAJbogA/6SYz4ojNxDGX2Xpa9xQfyWV3iCnHNK3kIOZdWBhxt7YHnJY9t1T6pAN6e4KihbmMDDD\n\
    V5Z+X9VX8pfp8f7ycnk8pvq8v19O0+V+v92nen1/fT1N98vj8+36uEz1ly/T89Pb5fE8v32eKmYzVlay\n\
    0/Tx/Lws/qcff/5pqhMB5RlwhrwQVNJK9gNABZhO08vtoyvBabqe3/yX6Xr548Pb7Xadvp7+rV4AQFwc\n\
    I3XUps5SFTfq+E39t0/3x/PD7+/n+/NyPyqRCBgpKkG0IPn/VaZNCfqnhF9SdAIkV4ISytuCUDVVKRt5\n\
    /ib/ev7PA6CRCQd3RDOkBbVqrri9oy4CpIYGKVJHWSBXLZXSMAHGpEXDAxAsxJVkf4A+Apz9BBFgly8L\n\
    6CHgbgIiVqjAcQWewStYZawEIwQUKRtopO49gKl1GOgwAc1uUwmuiNcegCpSYawHEqeCFniIZ4YFsPUA\n\
    u4dwiEAG1YQBAWlTyD+3cmXYVOgikJNmoMCgMiM3g3qHAW7U+wkUSj7rgiuSv3sgr22G/59A8QmRMIfy\n\
    ZaFmTx/oowQstVHHxxV0nULkwpV4gAACFpYSENBGwHvYDSrDBBD8J6dgUGsjgG5Sq1RGCCCubRwQ0EYA\n\
    pcnrKAEk5HZRxxWSY25ZKbi/oy4ClBHdQ5E64no9njJbg/YTYE4aDmovYW1MiM9qGiIgkAlz4NA0U24e\n\
    8imEW4d2E5CU46xvjbaAz1DeW6iLgJJIocBBeUY3qFXxDts6qJ+AGqnmALKXKC1qJO0h9xFIvmpZlAN5\n\
    Jp8R+btyADMBYgksVDzum0vB43JroS4COZfMFKSMq9vqIF1zfpBAkZILhQdAN6lvKrA/QB8BwwQWbetl\n\
    Jl1We1axUQKWWTC+I/Y54fItCgYI+KYufoagB6zlPK6b1m6KdhMgBDGNgsxmTG2VcM67IOsiQJhMLJoR\n\
    NhM3h3oYy3ZG9BIg8lHtW29UoW1bvgh5H48kMZF51Cc5VEdYCVCV7GE8TICTZ3EQNV6iLbye9MUnxRAB\n\
    IUrExx5y+bbsri3Go0lMvqlk31jCCtYO4AR0JAdIfUSYBerYNq32IrNVfew9QAkTlXQ8JrxEe/St26hs\n\
    H/V9BFJWb+XjF43LE67bOuxfNN0EMmfioMtahbIewN9M2zvqIrC+N4IhjeuLu80H2j+X+gmUjBKalNrC\n\
    60mMf5l0gIBnAFsJ5X3Z9RcrcoWtfDcBMy5CAQFq21Z7bvD+e48jAr9+/TMAAP//FytOd6ASAAA=\n\
    "

/-- data.go:3298. -/
def compressed2028 : String :=
  "\n\
    H4sIAAAJbogA/5yYQYtjNwzHv8ryrpsHkizZsr9BTz303UoPYfYVFmaSbZKhh2W/e2Uz3YITFcfDHAYG\n\
    /v/YP0v6K9+X6/vLy369LuV2ed8Py365nC9LOb2/vh6Wy379dj5d96X8/n25fX3br7fj27eloAaInCny\n\
    YflyvO2b/euX335dykJAugKuIBtgYSzAnwEKwHJYXs5fTAkPy+n4Zn8sf369XG+f/no/Xm77Zflx6C2Q\n\
    IsUUPAukDdj0SwidBf1nYcf49HY+nx7Ja4is2ZXXDXMhLZA7+fBT/vX4vwcgQWKOngPFDaWgnSF2DvDT\n\
    4bT/7X3+QJhU6bE6rRDq50csRNMEgkLSlDwLhHqASiBNEeCgScG5H5NPG2hBuL+fYQICmnJwGNNKspl8\n\
    0CI94yECklIIXg2EFXiDXIAKz9dADJwlo2eBWMsMYgk4RSBmVsrqyqeNQiEuorMEUhQFEM/BagDEKriQ\n\
    fK4neZKAVbEkdloEG+KNoNgb5dCpjxPQ+oPOEzKLvNUai+0J4fMEsqDxdWqAV7QekeoLDbGTHyXAQKji\n\
    3xFxvSO2h9rf0QgBBuWE2akBqQQg1OsJPEuAkUnRKzOz0I8DUG8xRIAJNMbo3I80AjbJuFB/P8MEKMUM\n\
    yakBqQSsTxhmmakBDiEhq6sesHZRe0HQq48TCDlBTs4jjStYo042J+8f6RgBjhLRm5NxRak9gnKbA3ME\n\
    JCBaq/YciD5mvfQOQwREcxDx1a1FhIJ0fz3jBKJgzuRM4mQubdhTgTRFIBEhsiuP1iPQOty9/DCBZL/J\n\
    ixKpEqhhjor0DkMErEkYA6eGTd2ynBamgtNzgGsFa3Ygawu8LW5N1kC2JAQZPHm0NGdBosahSQICQRG8\n\
    vKsrwUef436QjRAQyBIgOHxN3VqEFUCyNjdLQDAGe0HOHMgtbrU5cDdqhggIWaK2h+TJ13UDKwHo5YcJ\n\
    ULZRlpwwl//dOLiFuecJWNgFImcfyC3rck3TdR+YJGCz0raOxxYIbeVILQv1FmME2NYByo9fqMlb2LUa\n\
    EKuB/oUOExAWW1wfz8rqoDWtSJpLoxIhUpDHfE2d2hwTuuc7TiBalDAMjy2wxS3rQnXrmNkHLEujAj7u\n\
    QlU+1zlQAcPkPiAp26wk16GmLZuV1qx7hyECai3CooSnTq1FmEGY3sjExgwjOAegRqB98XF3gDEC2foo\n\
    OmOmyue2L+WWVKYIRLAiIHbuiCoBqDmixemnCUQkgqhODdjGHeoLqlOmX1hdAn/8+CcAAP//B35wB6US\n\
    AAA=\n\
    "

/-- data.go:3323. -/
def compressed2029 : String :=
  "\n\
    H4sIAAAJbogA/5yXy4ojRxOFX2Wo7S9BXPP2Bv/KC9fOeNH0yDDQLY0lNV4M8+4+WQNjKClMOncNLSIq\n\
    44s4J+Lbcvt4fT3dbku7Xz9Oh+V0vV6uSzt/vL0dluvp9vVyvp2W9tu35f7l/XS7v7x/XRqXJFZSSXxY\n\
    Pr/cTyv+9f9ff1naIiT1SHykvLI2yc34f0SNaDksr5fPiKSH5fzyjj+Wt5fb/dOfHy/X++m6fD/sMyiT\n\
    16RRBraVc5PUSHcZ6GeG8+mvT++Xy/lZ9EImiaLoIivXJtaEdtH5Z/Q/vlz/9QFmlq3UKIXSSvh6a1Z3\n\
    KeSfFMAQvcBJpKg8Dy9H8lW4uTaXWQKesnLNUQbWlampNs4zBICAqYbfL7yyN+am++8fJ5BqVSrhA6T0\n\
    FkIK2T9gjEB2MKagQ7XPAOVOQPYdOkygiEnJQZfqkX1F/wAz77t0iECpBsTBDOtRtH+/WtP9DI8TqK5C\n\
    Hj6gz8AmE4oH8H8mkIlZudjz8LbNAHUCZLvwowQybU0adKn1GRBpJo1kl2GEQGarDpGIomMG+veD7/77\n\
    hwlkoZQpxSkwA5gxCPU+xRgBSWgjD3rIOwFohFVM2SwB1WwiHmXoKgQN1WY+QwDzy5ixKDoIEFQoNyrT\n\
    BCwROKcwRe5Wo6VxmiLgomQcdGgC45UENtZ436HDBBwqmuMMLF2F0KU+NQPJHTYTlAfRa+8g98fyjBPI\n\
    rMVLmELSJqOQiTkCOVevkZNl6NzKpXl9rM8wgWJIIYGR5SPDKxPCN8ozBCrl4hZMGKKXzYn9ccLGCdQE\n\
    HaWwROJ9iDVBSWcIFNKklYP6FHj9yoLfQecmCeDrhbUGNSpHpj5lnprOqFBhSARxHD11iUB0nyZQBDKR\n\
    NZiBcpRNJtBCcypUpCrnaFvv+27XUf2xrc8RUPdu+GGGzcjMG+2dZoiAsZJEPla3TUuwpUDmpglYLpUk\n\
    IFC3k6MvQrhppgg4PEYjJ6t91er3QGm2d7JhAomq1cAHmPq+223GH51miEDqe0rAF9H7vYfupEe+4wQy\n\
    eijb810IKToBlL8+rotjBAo57oHnU4zwINBXLey7PnkPoEiqVp+flIyr+4eRwYz3J+UQAey55hqUh/um\n\
    haCKMbbZe6DAJovkoES8rVvWb2Ldl2iIQEUDGQc62sOXFS5v5TH8KIHKULkSdel2dcPI+s23v5lGCMDC\n\
    qiBBFJ03icA2rWmWQBUnljiF0HbQ4G7dpxgjgG3ac3muQryd3FT7C7oKDRH4/fvfAQAA//8OpV5NpBIA\n\
    AA==\n\
    "

/-- data.go:3348. -/
def compressed2030 : String :=
  "\n\
    H4sIAAAJbogA/5yXy4obVxCGX8X0NhLU9dzeIKss0ruQxTBWwDAXR9KQhfG75z9tcOBIFY4ahDEM1N+n\n\
    vrr89W25fDw/ny6XpV3PH6fDcjqf389Le/t4eTks59Pl6/vb5bS0P74t1y+vp8v16fXr0rhUzeKW7bB8\n\
    frqeVvzp199/W9oipHQkPpKtJM25sf1C1IiWw/L8/hmR6LC8Pb3iP8vb6Z9Pr+/vb8v3wxjdNFMRj6Iz\n\
    r2yNciMfovPP6H99OV+un/7+eDpfT+c7Ek6peKqhRF3Zm6dGdZCQ/ySQpOgFngpnSVF4SSuXBgVJQ3j9\n\
    Gf7l6X8fkCSXWui+guC3cv/6ZrSHQKpuKQXfL0emlbnzpfH75wnkJImjFEGirJSayK3EHIEi7OxhfsRX\n\
    wgtq4zE/0wRK0ZRE7yvo1gOpKapU9xCorp4t6AE9sqxUmtX9PVCJOKtzDiXQA7l5wRt2EED4bJVz0GLa\n\
    ewDl6RgTY4tNEqjEWnMpwRSy3gOijawZphA/SKCSMCUMiSg6phBpT08nwPsISGZBokIJ9IA14a2J+XEC\n\
    KiVZVKF2FFu5D4gmOoSfJqA1cdLgAb5NIW+MNI0PmCKAEaQuQYH6NoUwRTEi8m4CLpaFAsiQyCviC91C\n\
    niPgRSpzUKHeCZBvLTZW6DSB5OJqAeOEZbNiUWKM3jCeIoDcJLcSRq+9QNWbld0Ecs5VUgA5Hdm3IuVb\n\
    yHMEiiJ8/AKRXkMAfPOCaQLQ8EwcKSitSD9yRLyHQM1a8ID70fORSi9QmC0aK2iaAJNy/zeSAAEMur7v\n\
    d00hpqqFLchP7gSwB/pvzM8sAeZkGKVBD+ROADnCA3hPD7BIciyz+9ELEPc1adpk9xRiKQa/G0qwdrtl\n\
    1nhXD7A6uUWLvhyFu1uHXfQx/DQB4wI7FOx6KGBOUHfsXPcQMFhd46CCanda6DCYdR8raJ6Aa+XiQQnV\n\
    vuwhAc46ltAcgUQZgAOzW7vVwghyhE97CaSsKjlgXI+CRQYF28zc4wSyMryQ3I3OtHld27yQ7CaQqyXi\n\
    UKIffegBQB4l5giU5KjR+4u+h/9x8HGTcdFPE6iCk0ZDBfhdODmUEI8KUwRqccYyux+dN6fFG4Hx2pgm\n\
    ABvE/fiOJGC3sAeUN7Py+D0gGKQc5oc3swsjBK84XjSzBIQL4y6+v+uh0G++1AwXWXn8IqsiMLtKQXqk\n\
    O60+hWAmxvTME1BCmUYPkG63IGFy+4A5AtqHUA4I/Di5qXuJ/QRMsYoDLwSFfnH0GYqbZoLAn9//DQAA\n\
    //84vuozoBIAAA==\n\
    "

/-- data.go:3373. -/
def compressed2031 : String :=
  "\n\
    H4sIAAAJbogA/6SYy4obVxCGX8X0NhLU7VzfIKss0ruQhRgrYJiRHElDFsbvnr/axoGertBzbIQZGKhf\n\
    p76/bvNlur8+PZ3v96k/bq/nw3S+3a63qV9en58P0+18/3y93M9T/+PL9Pj0cr4/Ti+fp85NUs4qZofp\n\
    4+lxnvGrX3//beqTkPKR8Kkz1y6li/1C1Immw/R0/YhIcpgupxf8MP0FjQ8v1+tl+npYh8+qxpyi8Jxn\n\
    lm61a1qF1x/hn0/3x4e/X0+3x/m2pdCocQkfIDqTdZWe1g+gHwqX8z/R9y9JklmLoivNVLpZp7aKzv+l\n\
    59Ptfx9QRa22QEKOVL6niNcS+wjUWlLNQX7kyDYLksOd1vnZTaBZStYoUhCeObmC0gABJSbjXLejKyA4\n\
    X/IMjRJQKq2wBiaFRPtuIV6bdBcBZaNmJlF41ADlrigxGSSgQmQqoYLXgPYkSNMIAclVUwoJKAiwp0dB\n\
    gMcIoEs00uABttQAupC/YSWxj4A2BeLgBeY1wIjd3r5gNwGUQOEWVJktNVBcwbsQv5sAmlCunMPobRbq\n\
    +HAeJpAquqjotkRyAqgBg4V0iEC27AmKwrP6CwhzoI0SKMymJchRcgLkPbTrOke7CJTqNRb0uOQE0KTx\n\
    BKNhAtWkIN62RIaKm9TLd4wARkxRKVF4Fu8RGAVURgm0XEyjOQAFuBQKeZkD7yZgpEWMw/RI9S7kNbBO\n\
    z24CaNOpsvG2REGlLSYFZx4hYJy0UA4cWo7M7iGfxGuH7iVg4qtEjRXgUhQx0jRSAyaNrZWAbzkKmjTm\n\
    QO48XAOGr19aZKGKaTP7pN+w0D4CRrXUGgz6emRaPIQUpVECVlAHUReCAlyalm10iICvorkENVCPghbR\n\
    nO9P1EAmoRqtW83XLcaoQfD1qNxHIOdEiePw1eck1kUencRWNFGVYNK05eJAjsqysb+fANYIrNSBg9pR\n\
    bF76Q5e1g/YTqCkzXhBJ4OTAA1JdlrkBAg1Ngsr2HGBaCLB3IR6dA4YCTmKhgu+7bZmVa4U9BGAfKta2\n\
    HYTovutijahvHbSbQGL8awFkSHw7+hTDeOgegP2JLW2PGeZl1YI9rTMP3gPIfsot6BNQ8JsPqcEupAP3\n\
    QFLSWmnboIjuu655k7b1tbGfgPoqkcMUYdhjlUAZyDpF+wiYLgi2wy8n97ddSEb/KpESUcJ/kQIIIP0Y\n\
    BWnkJkbkUkqwC/FycXtQlPGa734C2T2kAQFxArzUQNpF4M+v/wYAAP//pFNF8KESAAA=\n\
    "

/-- data.go:3397. -/
def compressed2032 : String :=
  "\n\
    H4sIAAAJbogA/6SYz2ojRxDGX2WZazRQ/7qru98gpxwyt5CD8E5gwZY2kkwOy757vlZgAyNVmLSxwAZD\n\
    fXT96qs/+jZd319e1ut1arfL+3qY1svlfJna6f319TBd1uvX8+m6Tu23b9Pty9t6vR3fvk6Na8o1KVc5\n\
    TJ+Pt3XBv37+9ZepTUIqM/FMaRFplJvKT0SNaDpML+fPiKSH6XR8wx/T6/F6+/Tn+/FyWy/T98NWwVOi\n\
    oilSYFkEgb1x2ijQD4XT+tent/P59CR6YXGpFkavC0tja8k20flH9D++XP7zAaUIeeFIQrxLJG3EGwn5\n\
    VwIYohfUxMmEnofHxxbWlqgJDRLIRFWTeqTAvACwpKY+QCBTLu5cw+hlIW1SmtZRApm1mmgAWWbJC+rH\n\
    9BHyLgJZKBt54AHtHiBu5i2NeiBL1oQiihRAgEEgQ2SEgErKnIMC1U4ADkv5sUD3E1BAkBwUqXYPIDJS\n\
    ZNsi3UfAUq0lBfkxKCzMjfEI5IeHCCT2uEptZupVatxS3SjsIpCKFMkljO53vgYbbKLvJ4AXFKfwAZK6\n\
    BLJk2wfsI+DAm1JQQwkuW9gbSVMeJeAukmsOFdCprWlpnEcIFEUFeZCedCeAArV7FxokUAkZiiVAACWk\n\
    9VFiHwG4ALM4qKE0Ky+C8sQw29bQXgJOAsoeTOI8Ezo1ACNHaYAAahOIOfBwnhlN2tCCHj28m4BzRrBo\n\
    2OdZtE9i/WfY/38CLuxmFMyBPOu9R2AYi4wSQJcwkcBljs/CqQ8y27psFwHMmCop4Oszo0XUnh7e8t1P\n\
    wBgiGnjAZ5EugV3ooY3uI2BOmSzMj9TuYvEmo13I4TCuJehCBZj7LgTGNNKFPFMR92BMlpltodI9nGiY\n\
    QMYkcAsIlFm4m9hqozECLlZYAwKlD3rsEprG54B7NZMcuKz2fbf3OawSW5ftIlCyeIkKtPZroxcofWAO\n\
    eOVaOWp09X5yIP6TRrePQC0k4S5U+7KL8BiVPLoLFUpURZ5PGqb7xWHdZbSdNHsIFGYUqD73AKKDAOaA\n\
    lQ94oLBrgZNDiXKHXOHjEQJFFG0oPe8RCN/PDQz6vlKPElDqzTpQ4L7vEuZAwkkwcA8UzbWKB+nhvuti\n\
    T+xzXkfvgWJSehsKJby3UZPBi6xYxY+F+RHr30rAxbbNz24CKaviMH6u0K/K+82kj1f3LgJZVPArjF57\n\
    gRJqtAwTyGCAREUSWLfwAMwBGyMAe6kH3xkgfCdAHTBvL9aIwO/f/w4AAP//NAk6uKQSAAA=\n\
    "

/-- data.go:3421. -/
def compressed2033 : String :=
  "\n\
    H4sIAAAJbogA/5yUT2vbTBDGv0rY6yvD/N2dnW/wnnqobqUHk6gQiO1Ukukh5Lt35EMKireoAh8Mgt/D\n\
    zG+feUvT9fFxmKbk83gdujSM42VMfr6+vHRpHKbXy3kakn97S/PzaZjm4+k1OVYztCIZu/R0nIc+Pv3/\n\
    9UvyRMB8AIxfj+BYXPA/AAdIXXq8PAUJunQ+nuJPOg+/Hk6Xyzm9d5/oJRtKadKtB3ZWl7Ki4wf9x/M4\n\
    zQ8/r8dxHsY7EVWgUOZWBGqP7BAD8CqC/kTEkhoTVEBUMmrhiftlOeZAKzx/4F+OfxugQmElza0Ehp4o\n\
    wK55h4GKDLWg3KfTAfKynjCAstdAxVqKtFZEB5Q+1g/isl7RNgOULUPVFp6oR3QVV91rgKkYY2OARUIP\n\
    5hQ7Wg+wyQCbGuSGAb51AJ3iEe03ICrVSm1FYF4iuLjWXQaUBE0bLeYDyYLXeKHrFm82oHGGAJsJ0QE0\n\
    13iokYD/bCALhuIGXW4dyFGAz/TtBgpiRWyUWJYOUJxRc86riG0GSjGq2hAstw5Q9Mu5rvCbDRirZmvu\n\
    iOpyqZc7t8uA1SLRsft0XQwsFzo78W4DNRtQbUaEgTgTEmdiHXHXwPf33wEAAP//2eSfTFIHAAA=\n\
    "

/-- The files by year. -/
def escFiles : List (Int × EscData) := [
  (1900, ⟨116, 1439039563, noData⟩),
  (1901, ⟨116, 1439039563, noData⟩),
  (1902, ⟨4916, 1439039565, compressed1902⟩),
  (1903, ⟨4822, 1439039565, compressed1903⟩),
  (1904, ⟨4917, 1439039565, compressed1904⟩),
  (1905, ⟨4817, 1439039566, compressed1905⟩),
  (1906, ⟨4918, 1439039567, compressed1906⟩),
  (1907, ⟨4821, 1439039567, compressed1907⟩),
  (1908, ⟨4917, 1439039567, compressed1908⟩),
  (1909, ⟨4818, 1439039568, compressed1909⟩),
  (1910, ⟨4821, 1439039568, compressed1910⟩),
  (1911, ⟨4822, 1439039623, compressed1911⟩),
  (1912, ⟨4917, 1439039623, compressed1912⟩),
  (1913, ⟨4817, 1439039624, compressed1913⟩),
  (1914, ⟨4822, 1439039625, compressed1914⟩),
  (1915, ⟨4917, 1439039626, compressed1915⟩),
  (1916, ⟨4817, 1439039627, compressed1916⟩),
  (1917, ⟨4818, 1439039627, compressed1917⟩),
  (1918, ⟨4821, 1439039628, compressed1918⟩),
  (1919, ⟨4917, 1439039629, compressed1919⟩),
  (1920, ⟨4818, 1439039629, compressed1920⟩),
  (1921, ⟨4916, 1439039630, compressed1921⟩),
  (1922, ⟨4822, 1439039682, compressed1922⟩),
  (1923, ⟨4917, 1439039684, compressed1923⟩),
  (1924, ⟨4817, 1439039684, compressed1924⟩),
  (1925, ⟨4918, 1439039684, compressed1925⟩),
  (1926, ⟨4821, 1439039685, compressed1926⟩),
  (1927, ⟨4817, 1439039685, compressed1927⟩),
  (1928, ⟨4818, 1439039686, compressed1928⟩),
  (1929, ⟨4821, 1439039686, compressed1929⟩),
  (1930, ⟨4822, 1439039686, compressed1930⟩),
  (1931, ⟨4818, 1439039687, compressed1931⟩),
  (1932, ⟨4916, 1439039688, compressed1932⟩),
  (1933, ⟨4822, 1439039743, compressed1933⟩),
  (1934, ⟨4821, 1439039743, compressed1934⟩),
  (1935, ⟨4817, 1439039743, compressed1935⟩),
  (1936, ⟨4918, 1439039744, compressed1936⟩),
  (1937, ⟨4821, 1439039744, compressed1937⟩),
  (1938, ⟨4883, 1439039744, compressed1938⟩),
  (1939, ⟨4769, 1439039745, compressed1939⟩),
  (1940, ⟨4866, 1439039745, compressed1940⟩),
  (1941, ⟨4773, 1439039745, compressed1941⟩),
  (1942, ⟨4867, 1439039746, compressed1942⟩),
  (1943, ⟨4768, 1439039747, compressed1943⟩),
  (1944, ⟨4868, 1439039803, compressed1944⟩),
  (1945, ⟨4772, 1439039803, compressed1945⟩),
  (1946, ⟨4768, 1439039804, compressed1946⟩),
  (1947, ⟨4769, 1439039805, compressed1947⟩),
  (1948, ⟨4866, 1439039805, compressed1948⟩),
  (1949, ⟨4773, 1439039806, compressed1949⟩),
  (1950, ⟨4769, 1439039806, compressed1950⟩),
  (1951, ⟨4866, 1439039806, compressed1951⟩),
  (1952, ⟨4773, 1439039807, compressed1952⟩),
  (1953, ⟨4772, 1439039807, compressed1953⟩),
  (1954, ⟨4768, 1439039808, compressed1954⟩),
  (1955, ⟨4868, 1439039862, compressed1955⟩),
  (1956, ⟨4772, 1439039863, compressed1956⟩),
  (1957, ⟨4867, 1439039863, compressed1957⟩),
  (1958, ⟨4769, 1439039864, compressed1958⟩),
  (1959, ⟨4866, 1439039864, compressed1959⟩),
  (1960, ⟨4773, 1439039864, compressed1960⟩),
  (1961, ⟨4867, 1439039865, compressed1961⟩),
  (1962, ⟨4768, 1439039865, compressed1962⟩),
  (1963, ⟨4868, 1439039866, compressed1963⟩),
  (1964, ⟨4772, 1439039866, compressed1964⟩),
  (1965, ⟨4768, 1439039866, compressed1965⟩),
  (1966, ⟨4761, 1439039922, compressed1966⟩),
  (1967, ⟨4723, 1439039923, compressed1967⟩),
  (1968, ⟨4724, 1439039923, compressed1968⟩),
  (1969, ⟨4704, 1439039923, compressed1969⟩),
  (1970, ⟨116, 1439039924, noData⟩),
  (1971, ⟨4675, 1439039924, compressed1971⟩),
  (1972, ⟨4674, 1439039925, compressed1972⟩),
  (1973, ⟨4711, 1439039925, compressed1973⟩),
  (1974, ⟨4818, 1439039926, compressed1974⟩),
  (1975, ⟨4723, 1439039926, compressed1975⟩),
  (1976, ⟨4817, 1439039926, compressed1976⟩),
  (1977, ⟨4720, 1439039982, compressed1977⟩),
  (1978, ⟨4816, 1439039982, compressed1978⟩),
  (1979, ⟨4724, 1439039983, compressed1979⟩),
  (1980, ⟨4817, 1439039983, compressed1980⟩),
  (1981, ⟨4719, 1439039984, compressed1981⟩),
  (1982, ⟨4818, 1439039984, compressed1982⟩),
  (1983, ⟨4723, 1439039985, compressed1983⟩),
  (1984, ⟨4817, 1439039985, compressed1984⟩),
  (1985, ⟨4720, 1439039985, compressed1985⟩),
  (1986, ⟨4723, 1439039986, compressed1986⟩),
  (1987, ⟨4724, 1439039986, compressed1987⟩),
  (1988, ⟨4720, 1439040045, compressed1988⟩),
  (1989, ⟨4719, 1439040046, compressed1989⟩),
  (1990, ⟨4724, 1439040048, compressed1990⟩),
  (1991, ⟨4723, 1439040049, compressed1991⟩),
  (1992, ⟨4719, 1439040049, compressed1992⟩),
  (1993, ⟨4818, 1439040050, compressed1993⟩),
  (1994, ⟨4723, 1439040053, compressed1994⟩),
  (1995, ⟨4817, 1439040055, compressed1995⟩),
  (1996, ⟨4720, 1439040057, compressed1996⟩),
  (1997, ⟨4816, 1439040058, compressed1997⟩),
  (1998, ⟨4724, 1439040060, compressed1998⟩),
  (1999, ⟨4817, 1439040102, compressed1999⟩),
  (2000, ⟨4719, 1439040103, compressed2000⟩),
  (2001, ⟨4834, 1439040103, compressed2001⟩),
  (2002, ⟨4772, 1439040104, compressed2002⟩),
  (2003, ⟨4867, 1439040104, compressed2003⟩),
  (2004, ⟨4769, 1439040105, compressed2004⟩),
  (2005, ⟨4772, 1439040105, compressed2005⟩),
  (2006, ⟨4773, 1439040106, compressed2006⟩),
  (2007, ⟨4769, 1439040106, compressed2007⟩),
  (2008, ⟨4768, 1439040107, compressed2008⟩),
  (2009, ⟨4773, 1439040107, compressed2009⟩),
  (2010, ⟨4772, 1439040163, compressed2010⟩),
  (2011, ⟨4768, 1439040163, compressed2011⟩),
  (2012, ⟨4868, 1439040164, compressed2012⟩),
  (2013, ⟨4772, 1439040164, compressed2013⟩),
  (2014, ⟨4867, 1439040165, compressed2014⟩),
  (2015, ⟨4769, 1439040165, compressed2015⟩),
  (2016, ⟨4866, 1439040165, compressed2016⟩),
  (2017, ⟨4773, 1439040166, compressed2017⟩),
  (2018, ⟨4867, 1439040166, compressed2018⟩),
  (2019, ⟨4768, 1439040167, compressed2019⟩),
  (2020, ⟨4868, 1439040167, compressed2020⟩),
  (2021, ⟨4772, 1439040223, compressed2021⟩),
  (2022, ⟨4867, 1439040224, compressed2022⟩),
  (2023, ⟨4769, 1439040224, compressed2023⟩),
  (2024, ⟨4866, 1439040224, compressed2024⟩),
  (2025, ⟨4773, 1439040225, compressed2025⟩),
  (2026, ⟨4867, 1439040225, compressed2026⟩),
  (2027, ⟨4768, 1439040226, compressed2027⟩),
  (2028, ⟨4773, 1439040226, compressed2028⟩),
  (2029, ⟨4772, 1439040227, compressed2029⟩),
  (2030, ⟨4768, 1439040227, compressed2030⟩),
  (2031, ⟨4769, 1439040227, compressed2031⟩),
  (2032, ⟨4772, 1439040282, compressed2032⟩),
  (2033, ⟨1874, 1439040282, compressed2033⟩),
  (2034, ⟨116, 1439040283, noData⟩),
  (2035, ⟨116, 1439040283, noData⟩),
  (2036, ⟨116, 1439040284, noData⟩),
  (2037, ⟨116, 1439040284, noData⟩),
  (2038, ⟨116, 1439040284, noData⟩),
  (2039, ⟨116, 1439040285, noData⟩),
  (2040, ⟨116, 1439040285, noData⟩)]

end Verif.Model
