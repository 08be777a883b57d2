import Verif.Spec.ServerTest
import Verif.Lemmas.Decide

/-!
The signatures of the tokens with the secret of server_test.go and keys that count from 0, to show
that the hypotheses of C55 are met: they are computed in the kernel and found to be distinct.
-/

namespace OAuth2.ServerTest

set_option maxRecDepth 20000

/-- Key number `i`, of 16 bytes. -/
def count (i : Nat) : Str := List.replicate 14 0 ++ [(i / 256).toUInt8, i.toUInt8]

/-- The signatures of the first 304 keys. -/
def table : List Str := [
  b!"tZVSrwXxJJKnez4CV--N6EKpydEJn6lVNJko9IuvGs4",
  b!"428ptXIPQik3QUNziAve2uoH0zZ1Q60ajZSJY1sJLzI",
  b!"kY7nRuqsBRABSWsMHSv_bEGjP5I2HyQm3iQuJ6mL6s8",
  b!"yIcsLI4IS-bb0wTOcTYzz-KWIaWPnJN1IWmm7u3Nla0",
  b!"WraJxq3U6f4BQMugSGStsWASySQG5tVYk3bv84HuuiU",
  b!"QmIIoOiFZtiiw4U01LSqTL7b1lel8Otn-hIO8tGdCxA",
  b!"YAWjmSznGWKnO6ukztMu4XJgBUvFTrE56Moe1w4DdGQ",
  b!"LHXZu6jZXt-muUR5fEsDxa9AcxLwbKfQaIR6fU3y1BE",
  b!"Tzt4ep84kAd93EB2JjiKss3NtEjfvMtNqovowPlvxOU",
  b!"yJatF-9wiNM8793Ifn1dMs0EvSjxoOj-z-J0HhYfJS0",
  b!"OEgtW4R--mqE0n258XxfN63wQ6K3fNxjrGzQHabxMao",
  b!"SUzWIkHN8NK5MSUGEfy87cui45-5ZDYdUCmrgEuG-5Q",
  b!"nGysaRUB9yXSWR-hnvDrNOT7DN_rjjLIehi86Hoy82U",
  b!"Hth4101C58NZhmF6XLu0OfooNwntSSfgclxSkHAYQbc",
  b!"KH8hO1mJAehIYS2ig2JZKFgosAloV4nu31XvtCdKMiw",
  b!"zgim4n1CRWk8s3PhDlIBgWHdDeYFtPxCYfWZlW6BzHk",
  b!"F0mM4KnOaz-GgtKfdQtaCcJ20KGkq-ywFP0nEdwKN0w",
  b!"Qtx-6o_cRsHv4wzpa9jlcY_VF_JZmnP9qKwtMcbTeV4",
  b!"Tm8naGjJTWdP0aj-jidNh4Wt8A78af7D73RdI_EDCys",
  b!"Sb4h4K00qmAi1HTeVdjdyszgVDjmV9hb8XYDmn0HcGs",
  b!"pWgXB6FmJUTUeowehMMHUEIYRB2bDhIl-cBPCKJzWRU",
  b!"N4f45G5GLCUo1CtQI-aPxzoslkO0pMtXo6TAZLUPEjg",
  b!"zfnVEKtKHl4vbr7T6moszZ4P0DecgVD0ho8gPvbW39U",
  b!"ZXawHfI4EEmRM6JOWSWo_fAsXmUBcqXOMIbFP6Up22k",
  b!"S1kK8PKQ0TtF_7F2mAi0qsgLrLXntRmvz9jSILy8rx8",
  b!"5aMYC6EwHh5HUtBLzc4vBpKgwClrmRLCw3IMSzj2YWo",
  b!"OvXswgR1IZ4sHjOXtVYGnju313jUUUOhRZqQY2OPbLQ",
  b!"tz5Z_qvqp0DlZ9S9GON9BfwFVHeyf8SAlajZAs7QdV0",
  b!"8lP4ye_hqURy9fdeixJrAvsN7QMpXD9MeeC9a0ZnCkc",
  b!"OmNXcF2eMuoWya-7g-J6o8uP9GbDSKvCUrpGdlAMleE",
  b!"XqeUi5eMNhc_SgsfE3wpqTjEL_9SAx1omjgAp769z64",
  b!"m7cZCs5476JTzYrlYqc1uDIH34H2fxS2D7nzL513hQA",
  b!"YbCCETK2DyL6vWHBufHWoB42He_8IJtQfBJDjlPPJOg",
  b!"HiLgsfhoZjGV1U6leOBqU05hoYzBdwdgvaeOeEu2iPk",
  b!"HnP8Px7gY3q0y-jJeYogTM6ot7402mNSr7YwAFzfqjM",
  b!"pqbG-K3xc5Ln2dPV4co2sChK_-20UhQQwUc4_uM5D9s",
  b!"jlFs27FRL6cbZZwopI5EhUHdAv0oXvFYVRDn-Y2Sfjk",
  b!"W5QwhuG6ZzACULQsRq5qg7Y1dj-YbfOnXckFVhyKOuk",
  b!"WPTXCrTxlMue_r2DJJPyhlu5NVRep6KocFSFWPRgbwM",
  b!"32zQzsvLerNJ68ZSgNLL5d8B8fCXoT8tE6jFnsUurJM",
  b!"NS5G9pTLX-4Xmyg1pjXDmjn1Nt4p5d7sFNwxrGhGqIc",
  b!"c_MI0XAd5aYotvs3GMCNuKbkZg-T3_nxWu6BNipxOgs",
  b!"PryhGzWz6co5s9tFUr73oWk1kTrms3ath1U7Za7Bauc",
  b!"n0QsKBNulZtwtSvv6NhuoUKknwV9M_lCMFI9hf6F3Ng",
  b!"hJ4hwuhIsytU7D8lY_ZnNlQTeG-rMXFf3THcdLinGLQ",
  b!"rmdXXQ45WG514FBNyI7owFh2vbYRo30Ns-fax9rjOOU",
  b!"-u-8V0MQJylZjeO3gdh0WWF1yP_Evv8XC3s0fd7Ljwo",
  b!"h1s07x4KuzuMVafKqCLDj4itnYnPEbhlHgzM0jiAjes",
  b!"QKzdK1-IDeS8-eLB2kJCPg2TOVssazNoOeLO4DRw91Y",
  b!"S9jjRcd3HuI0hD7bi_h5ZDG-rjisQlJS_j_GvA5wBhw",
  b!"FKJ9IRi_8--WXCtqxEPthn0yt_R4jRWvmOw3b0rkjvQ",
  b!"En8WZieOSIbZUePbbrA7w3qQBGHOAPh-1n2l8VdDYVo",
  b!"KO1IX4ODpHsXH5czTEyxPv-btGnEacB-LiM68xvYk2U",
  b!"MxnToufQhjVfcHADi2YacSV7qrcJBohgEOxOUKVrQhA",
  b!"70HEX6N4u7i64bpWGDG22brHhPKpI15Z0YG91b15rL4",
  b!"PiPYDBrDGeJkFVo1SwTVrat7ZJPYaAgq0d4k_4HEoDQ",
  b!"tvHgu3meWIUpog-Mw_RdCYF1kInMDtvuw4V0CEDKmgI",
  b!"co2W5pDqP_4_rLJHK571f_q8SHxQqb0lFMzuUiAeGtY",
  b!"qs_RXcvlrT2b17MLcMCYH6Xti2h3oI7QudCyP9QGkSQ",
  b!"u9utM4uSfwX5nalPkeuH9Gu5tNLY_6AZ7KFQrpBHdNY",
  b!"xvKcJixruPXayB3eUJclMI-DgEMKyv09yHG5hsR-elY",
  b!"rYH7exK_KGIpWBmz325fgRmpdPmYl0lFAcLzJ-XiRY4",
  b!"2Vt15duUHp9ab0eUhz_yWsxNTrlmvzu59t2RF6clJ8I",
  b!"ZavPdKO3vBc9TcBmKUKaSrbDivh8fernABGY4orXN5I",
  b!"palIm8-GQ2n0DUs2VubldPSzG8qjvP_pNrspAHXFRrQ",
  b!"llQMElwKwMQrNco3rRY5qCtb9kqr44NYbYQWVlLK5m8",
  b!"qi4o9d69eLUMq2nUP40YDHiorAdaVGOunQg2pJkWv3s",
  b!"KRDFmGxstw7_r8OA-qeakqH3yI6P00jX-8-x8t5YFkY",
  b!"h5hzPhGGYXflQ7ujxGlbHmhgLeCMF02w1zdJ-T679QU",
  b!"kzNvw0TzSkr-8a3qUqWWwPxjHHD6ZtUxbvDpgeufE78",
  b!"Ebb5izEMrkJy-IBNXMA_wmmQ0-ShObgIomj2IAQBTI4",
  b!"1HpHSDuspLwgSrgyvIAqpDBQB6zHQyMSYJBy3tPcHbg",
  b!"fW_w_BH1naQk8ORk4j56i4pBKhCUPnJLFjM6wEb1WJ0",
  b!"D4AfPEIkOC2MVZueBFFowXWq_KwafXFUENqST2lsdmc",
  b!"DRBlhzWltYB8tsZDfXPJzqb1a48LAQfJnva9hLGDB0M",
  b!"EorsxE5lan4w3ayhr0ZeeOslD6m3shDgFg62WJa8qAM",
  b!"GXKkeCM9CB8g0iB9KbNU1_Dp-5PGmmMtVPceFagROVs",
  b!"vJYyqM6HommOme3WGISeCXAJvEUBrBCe3GhI7uRg6rk",
  b!"55f_mCjKxYnGH-YHSzGS-eZyOZOo200SnBIDqZrJjek",
  b!"GSMdROUmlCe8X9t6d20ytidLQtGJeqUhCUzh3NgHM58",
  b!"RwufwmRtLo50v14Hr1Y2VojS2WoD5LINmxhe7z0SWfk",
  b!"IpeNnnPqiEA-ITkwUIP0kfIHo17HI2S4LHDsUf5DVL4",
  b!"UgB2DXm6EQimmWO82nmzrstR_NzhVsNcHcevz8yfU7U",
  b!"u6gs3ro_p8cWs7E9kFCqgKa76dy7r1xz3FeKEHgPcws",
  b!"E86RnJ8Wn8uRjupk5qDVs-luGH21ErCcdeYhQ8nLhi8",
  b!"QYBGOuPbvs8Gk4ZNQLasPFbRhrnndfI96PXRIN__QXE",
  b!"HaQ1dOFVgOb_fjluGvZEn7eXehowpGHANeTzuqQ_qZo",
  b!"PoFOYzr3CUJ4SNBvrbkC3XjBPANNWRnBLTHxnHMTc5M",
  b!"NO7uuqxnjiy5cqk_aSmEHl-TrxCkySfz6BiiM1BHG-s",
  b!"9XlFoZ-QXc9ZMqj5Snd8CpOl6YjamYK8wJqklP6wyYE",
  b!"9EwYJMOgchTEQLwg5hxxbe3GGdshnPegFzM1-xWyFf4",
  b!"YFDpK0IxhtJwPrOzxg0gj9kn3BeWZQr8QzFwjjTA31Q",
  b!"DHoHBbkyseof_6v6Tq7QFLWPM6dZTmV2rwn5HDhj6L0",
  b!"X8NMBE6IksHr8RwokadGWfQlkuWYij2Wx3XPfY95YLc",
  b!"IkZexe-TBOfaHPqpnhj9pgsmU0U_3d92z34lHMtdj7E",
  b!"aIRNNL7acNgp43og1-rLbUCWr-peVduXj5XOagXve3A",
  b!"gQC9xoytn4xNW0ezgoZTS6GvUvTDPEnqSdxcIYo_NKg",
  b!"H5X2RwgBK98aMinY8WMfnGUQR6ObfVITUaDpkt_ZvoQ",
  b!"SJIAx3SCulbTVg8AkH7ipOD2G16cMxdEnNQEcYcvnd0",
  b!"i2USZOi6xTvs0WkOIiwZfxkc2RigyKult1K29Vk_1MA",
  b!"WNnlWtxkLjelmapjUEP5cG2tR3_TaIDn49sxA7F75Ok",
  b!"1TJtsdbp_lJMBVJIgawgxm5seyYebhgWJGPLWkzd4ig",
  b!"vTs6O_02BurxiTYNQiB1vUZIEivQoDAcJHeiwb3W1oY",
  b!"QUmHJnXFVQTrCP74FYg05T2hiBW4vytBZfup1BlmSpg",
  b!"3EbvRwlXHeDUk5fwKzZ_ImNeaBAN1iO0GOttOiRWztw",
  b!"C3X0WdKh8VCGOBoonEW5wqn9hMZkdGtO8vOtzmvXIx0",
  b!"ZoG0LN6DOWJpV9rLoi2Kd5uYczeCDgXjGWRU2ZuSwXA",
  b!"MI0F_jqJ7-EGXCfOEYv3gvCvaDXfXzjGhCF-H5Ud9es",
  b!"x34klD9xpGnJXCJrRXtT-H7dVNfsw8YYIvqi3w4dk8U",
  b!"UfHAU7tg04LxT_Or1p8Bqao2HGXlPzOfwGc6s4R_RT4",
  b!"XNYRy1ACBDdNPg2dK-etucukwKnT0G2v4DQsZ4aPFWA",
  b!"8bLC4Yhb89_BkgAObGOL06wxfbyYE8nwnuEWtgva7_E",
  b!"f5Q8bbo8EsoydJQszhLDUBQqU4xmTLfBBTtg3XbDiiU",
  b!"0Aye6tZAYuX8dMgxlByLH1gFHXu-lAqxHHcm8e_AGnQ",
  b!"P7dsDCszh7ckygAHR4beAy_lb-TAobRxlIic9L4Vv6w",
  b!"ptw5R0QehUjqxWI7F6DDzfqAN-h6iwYC6jEhEicUBH0",
  b!"KqkSBY6mjhoVKAtHkiQ3XYun3S4VsnsmBWj6hLYR6-s",
  b!"VB6dOCtJ1Jxqn4MVErgZ5EXJlYychg11oOWWaXgDEJw",
  b!"lRt8uIE3IqIfuExcdgYRoFD8dg4s6lf2Prg1-1DjQ6M",
  b!"l-gIxOMTdm9TzVYHozlp74mp1FXF4Z6VrniiaTJI7FQ",
  b!"-S8-8945UZ0WJzTTxA_yMOw6w0vK_0VTleYrOiQmiRM",
  b!"GovngWrP0UxOKe7nDu2E18ZwMCH1qmH5Xx0Mpjn7PyU",
  b!"ddIjav8ZlZnHzMA8janZLTSI0xkHBpyFlTRcSXNcIJo",
  b!"1d73rBdliBmobejUCmsCgfvj5IlXepN0VtC1fKeNVi0",
  b!"N-gPatyYZUqJrPjE8lJJ3t40cXu3gypD00Gn-cVX_n8",
  b!"TNkV9OmkhYp4fL3Fksma85BjYI2d6bnphXaXvpnroW8",
  b!"HrK8dKrHXPOVHj277ZfvnQbpncLsAfRgKzYRBpXnhE4",
  b!"H9UMhEWARgq2snlRtvoJhLDFRWTahLvOGxFbhz9Lm6s",
  b!"FTfWqzj-OekHlWAsrVwuZEPzG47bizeavR8HJhxlZQI",
  b!"tRyr7Sb1ei8elhf7OY5l2nJAFol9z0ZeagtGRmOnLxc",
  b!"8800R-bFOgwEiyVx3N6UvheKEQgoJWDcflLqCPFoM08",
  b!"VT46GrVLmmlKbvY88FH8mXZCvZyRNMzQ-CNga7krGpo",
  b!"UuJuI5jBeyU9CzB9rVN7sEYGZiHoNGo1j0HtmLGhoP0",
  b!"zFj5ARGJErSr76JHlyHLaQNKVVJ0qSMxL1uHBuunOjI",
  b!"vbpEDT8JE08J30NjfBO0vOzx3i8SxD6CHLX33GU0r1o",
  b!"-vJsVWIau-4YcrxtnvHNYdauQYaQPmkQRF7QRdtadDo",
  b!"3GJBl4xsGWdoSadRnao42RL6tGnrfeTMlmPpbgRSNqk",
  b!"5IkjoKTYWvei6U45yXcPhh9qKDEpycocIHBfhixQ6bc",
  b!"J9JS5yVGqPCfsP4fZAxXwOT0ectZ3W1DufL1BjuFMbA",
  b!"9wljX5mMcEl9j_HnmAVAqLMiWpsMMyo64_cA41mcjPc",
  b!"SJHPenEqGQywdqBC_K5XIYMgbyzHyUBAWXnyhCrEiLs",
  b!"V7aeT-J9QqIHlsLEPtaJzwl-ILmrXOBtYM8G_DXmszc",
  b!"e7X00UHnuUzlAhs7f7aQLBOLD9RJtb3F5xuc1Q58R3g",
  b!"GQX9M6QJPQX0GM7lpNAgf9KDOErQb5TfL3FT8JGuJIg",
  b!"83p87TVG_bMevEulDW_QVZtC9Zz7LI1wOgN0vm0Jxio",
  b!"k56cVPaOEmhRH05yHsgzfOuQ_R710Ua-IwlIKyr-WBc",
  b!"kt-FYEYTiBUo1SFxDTFMMd6KxT1qIQNQk0R4mT9QkqY",
  b!"dNd1w0tNspbqPgU-LTlsgSm7RrXFOA1PqaWt30lgG8U",
  b!"WV-6ioJEfEOTOjrRQ8r_eQg8267EInPXfUWs68VXSN0",
  b!"h53en5iYyOthco10olWYg1kgUv3Kp8qOuVc1p94iqZI",
  b!"I0mAJQvAUXaGDIknYrEi4lQ4jUsbAJmEDZx5M6f9K-U",
  b!"sNi0eLAs6H7Ip-xYRgbyRVunfRYgjcqC0VnApU5px7Q",
  b!"OXn0dIh-rE7FBnDHRy8RE3AHjTqRbxyzFwgN7wdlTik",
  b!"B3zzmt6WpNr_cKERQMsWhl9IZyPIr3TI8VkrxYAC5C8",
  b!"mFz9I3Kyl7WHo2fZZV54lYFHEJgE8rTGt6TT45IHwBI",
  b!"q-8KqfzeXz7yVf5yIF_jaHJuundwL8V0a3X44o6W_IQ",
  b!"UUe6UYwuBkkc3y0KCM-bRoJFxo4Mq_QT-DXIWmK23ps",
  b!"mT9NoaAZXxt2xQlL1j7lDxKX1MkUftO6UrEnF1YUR2E",
  b!"OzZkWMx-_L-KWsCL-QnOTDqAvVLyyofltUf67stZBwM",
  b!"W1DwdWNwCDKD6kIbHQiaWoJYM6ZyMM_mBqYMM6td_3k",
  b!"v9XkeyJT4NuSB35QRhnrQHnHGBAVre_7WM4BudIf748",
  b!"6Rq8a5gl8aPcEn8mEnscdFOaTwQ1J5sDaoYJgEMQ820",
  b!"0RHEgFW7TGX_-4NeHmmsR__scULhaMR5vNxKdawmY4U",
  b!"0A6SFtMysbFfwwyClaLq2VxGG8aLuLVZrqvV6KEAyVg",
  b!"IX0goxkvgjZSKrw4HkoctnDRJw_E3pa6UP2GQ9xzFNE",
  b!"cgSdOyBiPKmDhbrTpKsQSPSZizm7b0ZGQLn5Gz8C_1c",
  b!"Qa-TagbzPIjHUg9KMHnKWgbUa-oCxYkAOGjderohBUs",
  b!"RrLJ6_TmYD_QL5J2t5RwG9lqJc_lu4KfC7BDcpJLSfM",
  b!"orvg3X4lWIB0WGQok2qCLlYHnwbuNXyZuZFJw7XUs70",
  b!"pq6Znzwf06rRrHEqRd8YQQ8MTVYpqIZBiDbc0AbxRMU",
  b!"NTaD5yuluVtWgnVFR-tgj0c332_xcoHNTBupWh47_0M",
  b!"HoxglgiMwQ26ZT9_vfeEPttjctMhHesUZkVGwEBnBls",
  b!"vUqcYTnbJfQksYl52lGVo6IHu3Np0dF-AsUDofqp3E4",
  b!"X9D9YGY2hsCl9Muw8QdapJ7qtswNVMV2cE-7y4QBPv8",
  b!"gWS1eU7WX3ZlvKolr4wTZA20mG8U8We3U-7kFras4kE",
  b!"dDqw6_bBPUL5qKI3MdtmeokW-FyrZvgHDnPxHHli_4w",
  b!"4ftLJ_hPnMvcfqNN2DYymU6QZcAF-rBja2XRgVtxgRk",
  b!"k0OIBptxEiRidydY0G5IgzBLlOHqBw034Li-e4GQu0w",
  b!"UxOHGlDj9HdTt7I3uJ7QfirFIFf4MJYqVvG5QMQz4iA",
  b!"4DFwvrAN9ityNZBF4T5s4-F-jljczWwSOgkiNU1J6F0",
  b!"S91wPIApqjXsLxMSSZwjBsEN93tzOSRbu2wvR9rD3ZY",
  b!"KBhzXacQq2SkCPXSwsjjPbapSEk7OQJhEJ-2_4PKXMc",
  b!"fe0HJze5PSLIS6qWZMNxOj1OURZofGiClsnY5YMn5CE",
  b!"kO9RJCTMALYwt9eaigbVfxv-YJCr2e1gvJuUo0gO1hk",
  b!"us4ATQWfzPCk8fk-YOxU-ZJD-PV34HWdRf92IMZq-iY",
  b!"MMmyR5PJYhB88K6Go9vQtHZ4mL4r43dcO1v7g5sygvE",
  b!"IREjpz0YNFwMzqq9qphseRjx3aCXcebi9eOXq5GomE4",
  b!"KPt2HGvBbikou1EsysPEM2gnHIdRgXP-E2QNexLo1Rw",
  b!"6pF_Slq1-E6zhYXeoVb41VPqfCBaWwMO8UYCg13AD1M",
  b!"Q8fSOpLcLGXg5_Yl7KNedSzSWl_UbPSdQQuldsvO-BM",
  b!"J9oxfwHhV5OGwg-kF3izE4P2OLDLN64TMWWC7kol27U",
  b!"r7yJCXDSdB1RzaG3JIsAG8eQUd1HwEyUp7rutZK2wdg",
  b!"HOG5-zBqxIvtTC7gkk0PDonc1EDVZ_oTINAPOa2KFB4",
  b!"3hFjqddD5wPooxmSz8pimPAygn1Q7laXcZ2Ze4m3yBA",
  b!"MdEBaHElX97tXCzli21h8WlPGIDJwPmHjLM5ln9Yzb8",
  b!"FnfDUJ4hUxwuOal0qkzg7BoZPaZSbZkAN1BWT4JqXvE",
  b!"KsRzZEMOg6kxOKry1oW-pDqPtfGqMm1Q0unEnw8upVw",
  b!"Ugk138xHfK4QBS-o07YQ7VN_uG_OtJ_KWTd_mmrFuzQ",
  b!"cLNdbbT2rcRFEYkWvMmzxtObS1NAuUSwKUSeKX4-44U",
  b!"eEJrTCKatZMkPN4wwZIO62ls0-1sGG15pXzkfxnIukY",
  b!"v_oU47RWmZgDt-27DECwwNp3L_qdSBV4FQQUo9227OY",
  b!"YemNG_w5_VZ99oimDeVUkKneBFl-_fP6-F-AYR2FVvA",
  b!"lL3_GrkH1jos6I5-ehvHfO2SIHfoPPjAbAtaIm6OS7I",
  b!"mIA4e4oKOy4gg13zhsmxHYq2H_r9Jiu4qutEp9y7rik",
  b!"ZiH-aAqHPCz6xwAW6H7GdzVjOoq2VRPT58A4aUQTKN8",
  b!"PkqQbF55BQV7_9rQBO6NsT4rbt0OJpLj6VesiSiXGJc",
  b!"aS5KQOtStqyNxiu6Q8iP-FBFuIYWDYQj-36Y9hoh9x4",
  b!"daZi0-nqPtVZvZXcjfDEVP2f0MWbPoAbw_gdP8ZQAmw",
  b!"5Oslm5J8sEWyMiVAgGRzx1d33itDBv7mUCfQcGkO5hI",
  b!"QgoAzCGlpSQnP37DiD2XhuYzm5DxPjVn8c95S82XL24",
  b!"GJeFuF3yiQCCotL0Y2YIYTNXz37aOCr78KAGqA6lrrE",
  b!"p6aGMz9Ma4APFTEgtuzb5M27QrTfzisOTraGCclD738",
  b!"aSBIrdOUatKQTGAkXKWFbjtAPvI15u2W39ZnePDew9Q",
  b!"Gwfgc3Set_5-K73KDfU9lAEfxBGMyt5Q80ShIMtEi2I",
  b!"T7FC9NRfMm1EpXAbE0yfB62fcjWC9lg-0AB__yt_hqY",
  b!"Ns6iZqH2JvmUV66G0cNBzXZgg4BF_pJ6XijE9GFvy8U",
  b!"Z6NlXvyCULDxxtrhfm0aJbnW977_iM2cA66dwpHRRu0",
  b!"DRMBh0cV3UJ3-J0zB8clP9j_3LHTOV002tOxbsmZdkc",
  b!"rZstZGwgs3xgkQThk-abPj8rlndVETkd7-Gc8UQlTf8",
  b!"b7PV0xURKPb9w9FYiyu792I02-SJcXn45--QWFdYj0o",
  b!"eFYyS5agbLGA53ERpTMAmP_aAwcFF9JyJBPWsoxAYIo",
  b!"eSqHRs2A6BaYfSXHy69hGH_pEq5aZINE5-sWGbW-YC4",
  b!"vTHSQBPJwukrN81S4s7brCogL1Mj1ilzRcqIyP7tEbM",
  b!"9NwCvRwH9-x6Nvm3P7H-_g3F2brTCfifX4uw2khkD5E",
  b!"DKiKxrJae342fzZ1g5orM1SrtXkgVr2sVzoL5xSVCOY",
  b!"eryaNP1BHzlTSf0OOGj2hXjH5z4I75U9MJhvDJzUPtY",
  b!"pxgWrGR19snch_8wv59eJ2qZxS9Ov7FDA1_gl4-LbwA",
  b!"M8BZWGZ7h8QC9CcC3AeZOa_om5UaVY6H3-JVk_W0quw",
  b!"GUbBvNmqixBu6nC-fr6_69ywSAyMpKoq68ORxMMPOKY",
  b!"nBCX2RMjm_BbrtGsZbcB44Dcr-zWmONS97KfVKegz2Q",
  b!"xvr9e4rgCBwH4xejVgkOBu4dDmJQ00CelMT6FogEnT8",
  b!"WEUiUwCKpNxAeRCNiceR-0Sq9H1K33VJxAtWC8ki9uQ",
  b!"kDY8a40Itqx-5URo5Tbcne7kW9g8wVa6N_JUT3YEedY",
  b!"ACMLoP-_HhHTnmGfJqHetaptMIZy4I_1U8jYK0uHC2U",
  b!"ac-CgQkOD4HkGtzSkrxCG4ix6vjAuHZAttQDWNY32k0",
  b!"gkrzgBDVFUk6cCokYeyBaycYoyqWmdzUIfEdkzDTusw",
  b!"KfCmuPFgiBvUJfRlKDVVmDdH-xwbQfGI0TTZqNoMqgo",
  b!"qy5pFNMx3TLS_QcMKXrMMn-07r7RgRs4cuDbvBDCfCw",
  b!"nT00y-w1Gda2mg4S4J7AZOOFonL6CZCewo2LjYcqORs",
  b!"9QOEd8hMZV-GGqafkpHKpS7YBmLmtSV0e0Qic9Esj1E",
  b!"54Hk3aD-A3c_MPynDV2juI6GJirZ87Ki2UIEx40ECJI",
  b!"FJNmy11KKT73Srm7UnvgvertArS45ItpE-xPdUWpzLM",
  b!"W4hj4-fvP3XFsgckWTYht9lwziOFncaTNR9FtbQqpNs",
  b!"tzKZEESnAJcnXL3-4wbdFl0HKcDWBs_wWqi4oi39Eog",
  b!"LM5S6buvr52DLXU4otN9mtPHEZuFQJhAHUdX3Enkoz0",
  b!"D1KWoVkeBxVBXC-4jDqauJOLmlqpnw6w-tGcf26YUfo",
  b!"1mML6exWSbLsLu0Oxd2Iu3eusoWB5oGuubXBg10ca-Q",
  b!"3coyxGAFDSPgI-GPJ-Oqw9eAD0ypmO5Tq2QmsGVZS28",
  b!"jESrOEcKqnQfT9o7-iBSPJuxdShWrnxat5-SmR6R66E",
  b!"V79KafNx_gZ4WM5Bl5LBOpcQ-zhBEmV0QhpEqTsAw-Q",
  b!"Scveo6flpOF6sv9qYy7OsBFAfxQyOK9qbDLGw1DdqUc",
  b!"VKSLfXtfHXUv2YI2qftAUNHcZ03PLjlZyWq33LS1GD8",
  b!"ok1sODL6EbVrA5qLX6Hvpt_MuDhhd2JIB-NfoMOkM0k",
  b!"hsYJNIIlR1eEUKhq50Gk8cEMizojEfbjqsjkPmI7Fow",
  b!"pqmJ0Sl9qWhNdMmdP0aIgpFfmvsoEDtoYK_30KvkaXQ",
  b!"N6nWVbTvMA8b66NDcDYGKPZyVOVfQh46qKniyZ4eE2U",
  b!"K1T4JANRUH_kJxrwXWkYY7ST9MijCSSGIBrIGZNwkR4",
  b!"2yZKttwpkb2nb4EXBPQ6vt7RNhpzIgy15rIPuihO6iQ",
  b!"titxiFIBcEBp3yCnoUwxnQ452SKje0CrMj9JYV-FoJ4",
  b!"JZucjAjKlGOksSxlwZaItMUpoYy1n0WXRRpK-gXShZQ",
  b!"3mJfX_kj0KRhsUFZCAPf7XWd1PD9zBLdjyFCnC-GueM",
  b!"vTpEHyiRVtATfjVnFvKOzC5zhK0TXM3qBLJheMtcZ4I",
  b!"Dgb7WONTSmNhEp7VU37bwtwLIfFBNpqCtpCP-dzIsQM",
  b!"d7slVXN99aWRv9CP-0HZyrn6riHU1JUs2FPfIS32EDs",
  b!"FKZeWdkbfWQ43EVeVRKFgZO1O4IjfHVaHYv8luJuP4A",
  b!"IQayt-Ua5RXOgzfYpLhScpsmptN0Pzkhr868tY-eWEE",
  b!"xRuSnNSUiZm9xlxU1HToqqU_dvsVSK8Br5Wo55_4ik8",
  b!"zhPUBroCB6DFSCz5pu7lV2scoX5bxHFkK5a2Ssew1jQ",
  b!"HWf_nJ-02BEeCzPBdX6eiAuzwubIKImAJabK50m2Fhk",
  b!"BEozkZLRiccLmV8IiXgbRCbRZuRkNmUWmvW6mrEuiVY",
  b!"I5oepiVR8AxPtyV57imoh6rVnJFXLlESgJ0mRw9a9KU",
  b!"OZGZzGnqtfsCnFnlFzMa0Lxz9QGGsPhpg2gOlDrRDtc",
  b!"aXXta14NU07j6L9xuxwCI8OvMXSEE6r9WKaWsprGsA8",
  b!"jnm1DRu35KYmSQI3YljpaufPcdsRaEE0mQR8tQUOoqM",
  b!"q0-osHEV9tv1HaKbpQzo9DIhzBX7tDkXC3jPTOd31hw",
  b!"kvuWdjZ_z95sD2B_7oNsBG3dWMZFgnvoMBt04xD5NH4",
  b!"tc2prFOBhnRzff4tTIhpiEtAWn_03RJUfuKiA6jOfbQ",
  b!"dAv_fyIJFdYhqM4jj7hwIL0BJclE-pvmwwcJouirsIo",
  b!"lz06Pmj7dQ9fyNKjm4r796wpfI4MOCM0A9xFXd8gyHw",
  b!"dJ9q1w6T8g-mEW3DzcGq5oSnjVgJio0_azulKISBc_M",
  b!"aQfdKSdgBc6TFsDYTMbe5FGKeeE3OwiCcnSOQW7Yc8g",
  b!"lBu8vkr3e8n2408K9WJgG6mOP_m2OQq3Kj2T0KJn7nM",
  b!"MtbJys0353o9IA6TYFpKid_jkVQyzwIE_PbGNZU1BrQ",
  b!"k1o7__Wv-g5O4whx78Ol-TZXE2UZGxT_8R4ZYsCKSpE",
  b!"V5FMnjxswp2CPMCHK02hcx48bfOjyaFhd2Ni0S0uvl8",
  b!"_jVWpmEiyxzwJ9sSlFSZcJCkBHq-AK6f84KlujNtYTo",
  b!"1FqGyT_S1hV9jbULpgTIip8pKnxT-QS5OH-w6ppBko8",
  b!"tKrUh6dz-B6iUI-U0mBmAHbWxquu2mj4QSfok0UWe9A",
  b!"5Ugq054JJlXr4h9hmRXrD3OpkpUhm8F0tbNqH4rpVww",
  b!"glBvKsXILUO6-GIRVWIwPEubbVwEte3RQvbV5qBFpS0",
  b!"ah0rfhdn7M3VF1Y3kgja2d2nblnB4m9XRgr3MnU3r78",
  b!"s5NHU_zUKR_jBJhn6fnawwSSlaMDQEG8b3uqnBQObNo",
  b!"HXBuQwlSobuWtNRZuNVDs-hSsXMoXXXArIK_Vyi690U",
  b!"d5A3aoCcOhIsYhWF__FddK8H1bSGp97VTnjdnZfQn-U",
  b!"tNpEDDeALbgn4qEoKXXthaCR9UhytZk4grKd0M_RfcU",
  b!"8pmUYkUl_faWNHaHVxqXkFLlcfa_hfC-_0qabIdW54E",
  b!"zec7dzZNLElOrviqcwW2FV62CDyi9aCYAWXfuD2GpF8",
  b!"5_uxf-eO7QcDlzH8Hpf4JZMamUjTJ6WbjEywIlWjDGI",
  b!"-wPwo8NYovmzn1O_PctzLpiX6ZahGHTgWiuc597BJQc",
  b!"i0xs3x5hLNauLYiLtNmVb5xmHj_WjNcqaD4swIukeAE",
  b!"2xDN2-abkQvY1G2u5l4MGQSvO6uS5AfILJfcmMqx_dE",
  b!"iZYdnUK8O1l24g5Xqif_rq5P9aCQUZz-yggAEw6Ctic",
  b!"SFUyKOjfui0uHwMBYa5FOGUh5teVPlX8OOe0dJTf2Ec",
  b!"OhG0UCNP2fS3-kPx5psdcNq4ameyzXIU0ok-Tohfv0k"]

theorem table_nodup : table.Nodup := by decide +kernel

/-- The table is right for this and the following seven keys. -/
def block (i : Nat) : Bool :=
  (List.range 8).all fun j => table[i + j]? = some (sig count (i + j))

theorem block0 : block 0 = true := by decide +kernel
theorem block1 : block 8 = true := by decide +kernel
theorem block2 : block 16 = true := by decide +kernel
theorem block3 : block 24 = true := by decide +kernel
theorem block4 : block 32 = true := by decide +kernel
theorem block5 : block 40 = true := by decide +kernel
theorem block6 : block 48 = true := by decide +kernel
theorem block7 : block 56 = true := by decide +kernel
theorem block8 : block 64 = true := by decide +kernel
theorem block9 : block 72 = true := by decide +kernel
theorem block10 : block 80 = true := by decide +kernel
theorem block11 : block 88 = true := by decide +kernel
theorem block12 : block 96 = true := by decide +kernel
theorem block13 : block 104 = true := by decide +kernel
theorem block14 : block 112 = true := by decide +kernel
theorem block15 : block 120 = true := by decide +kernel
theorem block16 : block 128 = true := by decide +kernel
theorem block17 : block 136 = true := by decide +kernel
theorem block18 : block 144 = true := by decide +kernel
theorem block19 : block 152 = true := by decide +kernel
theorem block20 : block 160 = true := by decide +kernel
theorem block21 : block 168 = true := by decide +kernel
theorem block22 : block 176 = true := by decide +kernel
theorem block23 : block 184 = true := by decide +kernel
theorem block24 : block 192 = true := by decide +kernel
theorem block25 : block 200 = true := by decide +kernel
theorem block26 : block 208 = true := by decide +kernel
theorem block27 : block 216 = true := by decide +kernel
theorem block28 : block 224 = true := by decide +kernel
theorem block29 : block 232 = true := by decide +kernel
theorem block30 : block 240 = true := by decide +kernel
theorem block31 : block 248 = true := by decide +kernel
theorem block32 : block 256 = true := by decide +kernel
theorem block33 : block 264 = true := by decide +kernel
theorem block34 : block 272 = true := by decide +kernel
theorem block35 : block 280 = true := by decide +kernel
theorem block36 : block 288 = true := by decide +kernel
theorem block37 : block 296 = true := by decide +kernel

theorem blocks {c : Nat} (h : c < 38) : block (8 * c) = true := by
  match c, h with
  | 0, _ => exact block0
  | 1, _ => exact block1
  | 2, _ => exact block2
  | 3, _ => exact block3
  | 4, _ => exact block4
  | 5, _ => exact block5
  | 6, _ => exact block6
  | 7, _ => exact block7
  | 8, _ => exact block8
  | 9, _ => exact block9
  | 10, _ => exact block10
  | 11, _ => exact block11
  | 12, _ => exact block12
  | 13, _ => exact block13
  | 14, _ => exact block14
  | 15, _ => exact block15
  | 16, _ => exact block16
  | 17, _ => exact block17
  | 18, _ => exact block18
  | 19, _ => exact block19
  | 20, _ => exact block20
  | 21, _ => exact block21
  | 22, _ => exact block22
  | 23, _ => exact block23
  | 24, _ => exact block24
  | 25, _ => exact block25
  | 26, _ => exact block26
  | 27, _ => exact block27
  | 28, _ => exact block28
  | 29, _ => exact block29
  | 30, _ => exact block30
  | 31, _ => exact block31
  | 32, _ => exact block32
  | 33, _ => exact block33
  | 34, _ => exact block34
  | 35, _ => exact block35
  | 36, _ => exact block36
  | 37, _ => exact block37
  | c + 38, h => exact absurd h (by omega)

theorem table_sig {i : Nat} (h : i < 304) : table[i]? = some (sig count i) := by
  have hb := blocks (c := i / 8) (by omega)
  unfold block at hb
  rw [List.all_eq_true] at hb
  have := hb (i % 8) (by simp; omega)
  rw [show 8 * (i / 8) + i % 8 = i by omega] at this
  exact of_decide_eq_true this

theorem count_distinct {i j : Nat} (hi : i < 304) (hj : j < 304)
    (h : sig count i = sig count j) : i = j := by
  have hl : table.length = 304 := by decide +kernel
  refine (List.getElem?_inj (i := i) (by omega) table_nodup).mp ?_
  rw [table_sig hi, table_sig hj, h]

end OAuth2.ServerTest
